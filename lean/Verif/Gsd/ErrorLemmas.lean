import Verif.Gsd.Lemmas
/-!
# Lemmas on readers whose file raises
-/

namespace Verif.Gsd

open Verif.StepSize

variable {α : Type}

/-- The frames before an exception other than RuntimeError, then that exception. -/
theorem iterTrajectory_error (pre rest : List (Raw α)) (e : PyErr) (hc : OnlyCorrupt pre)
    (he : e ≠ .runtimeError) : iterTrajectory (pre ++ .error e :: rest) = (readable pre, some e) := by
  induction pre with
  | nil => cases e <;> first | rfl | exact absurd rfl he
  | cons r pre ih =>
    have ih := ih (fun r hr e he => hc r (List.mem_cons_of_mem _ hr) e he)
    cases r with
    | ok f => simp only [List.cons_append, iterTrajectory, ih]; rfl
    | error e' =>
      have h1 := hc _ (List.mem_cons_self) e' rfl
      subst h1
      simp only [List.cons_append, iterTrajectory, ih]
      rfl

/-- How the file ends makes no difference to what the linear reader yields, and its end reaches the caller
unless a frame is beyond the limit. -/
theorem linear_end (stepsMax : Option Int) (interval kmax : Int) (hi : interval ≠ 0) (fe : Option PyErr) :
    ∀ (fs : List (GFrame α)) (il : List Nat),
      (linearReader stepsMax interval kmax fe fs il).1 = (linearReader stepsMax interval kmax none fs il).1 ∧
      (linearReader stepsMax interval kmax fe fs il).2 =
        if fs.any (fun f => stepsMax.any (fun m => decide (f.timestep > m))) then none else fe := by
  intro fs
  induction fs with
  | nil => intro il; exact ⟨rfl, rfl⟩
  | cons f fs ih =>
    intro il
    obtain ⟨h1, h2⟩ := ih (updateIndex interval kmax f.timestep il)
    rw [linearReader, linearReader, if_neg hi, if_neg hi]
    dsimp only
    rw [List.any_cons]
    cases hb : stepsMax.any (fun m => decide (f.timestep > m)) with
    | true => simp
    | false =>
      simp only [Bool.false_eq_true, if_false, Bool.false_or]
      exact ⟨by rw [h1], h2⟩

theorem emit_fst (m : Int) (cur : Int × List Nat) (f : GFrame α)
    {x y : List (List Nat × GFrame α) × Option PyErr} (h : x.1 = y.1) :
    (emit m cur f x).1 = (emit m cur f y).1 := by
  unfold emit
  split
  · rfl
  · split
    · rw [h]
    · exact h

/-- How the file ends makes no difference to what the exponential reader yields. -/
theorem exp_fst (m : Int) (fe : Option PyErr) (n : Nat) : ∀ (fs : List (GFrame α)), fs.length ≤ n →
    (∀ ss, (expReader m fe fs ss).1 = (expReader m none fs ss).1) ∧
    ∀ cur ss, (catchFrames m fe cur fs ss).1 = (catchFrames m none cur fs ss).1 := by
  induction n with
  | zero =>
    intro fs h
    have : fs = [] := List.length_eq_zero_iff.1 (by omega)
    subst this
    exact ⟨fun ss => by simp only [expReader], fun cur ss => by simp only [catchFrames]⟩
  | succ n ih =>
    intro fs h
    cases fs with
    | nil => exact ⟨fun ss => by simp only [expReader], fun cur ss => by simp only [catchFrames]⟩
    | cons f fs =>
      obtain ⟨i1, i2⟩ := ih fs (by simpa using h)
      constructor
      · intro ss
        cases ss with
        | nil => simp only [expReader]
        | cons cur ss =>
          rw [expReader, expReader]
          split
          · exact i2 _ _
          · split
            · cases catchSteps f.timestep cur ss with
              | none => rfl
              | some q => exact emit_fst _ _ _ (i1 _)
            · exact emit_fst _ _ _ (i1 _)
      · intro cur ss
        rw [catchFrames, catchFrames]
        split
        · exact i2 _ _
        · exact emit_fst _ _ _ (i1 _)

theorem emit_snd {m : Int} {cur : Int × List Nat} (f : GFrame α) (h : cur.1 ≤ m)
    (x : List (List Nat × GFrame α) × Option PyErr) : (emit m cur f x).2 = x.2 := by
  unfold emit
  rw [if_neg (by omega)]
  split <;> rfl

/-- `catchSteps` finds the first step that is not before the frame. -/
theorem catchSteps_first (t : Int) : ∀ (ss : List (Int × List Nat)) (cur : Int × List Nat)
    (q : (Int × List Nat) × List (Int × List Nat)), catchSteps t cur ss = some q →
    t ≤ q.1.1 ∧ ∃ pre, cur :: ss = pre ++ q.1 :: q.2 ∧ ∀ s ∈ pre, s.1 < t := by
  intro ss
  induction ss with
  | nil =>
    intro cur q h
    rw [catchSteps] at h
    split at h
    · exact absurd h (by simp)
    · obtain rfl := Option.some.inj h
      exact ⟨by dsimp only; omega, [], rfl, by simp⟩
  | cons s ss ih =>
    intro cur q h
    rw [catchSteps] at h
    split at h
    · rename_i h0
      obtain ⟨h1, pre, h2, h3⟩ := ih s q h
      refine ⟨h1, cur :: pre, by rw [h2]; rfl, fun x hx => ?_⟩
      rcases List.mem_cons.1 hx with rfl | hx
      · exact h0
      · exact h3 x hx
    · obtain rfl := Option.some.inj h
      exact ⟨by dsimp only; omega, [], rfl, by simp⟩

/-- As long as no frame is beyond the last step, and none that is off the series lies between the last two
steps, the end of the file reaches the caller. -/
theorem exp_snd_frames (m : Int) (fe : Option PyErr) (S : List (Int × List Nat))
    (hS : S.Pairwise (fun a b => a.1 < b.1)) (hSm : ∀ s ∈ S, s.1 ≤ m) (n : Nat) :
    ∀ (fs : List (GFrame α)), fs.length ≤ n → (∀ f ∈ fs, f.timestep ≤ m) → Increasing fs →
    (∀ f ∈ fs, f.timestep ∈ S.map Prod.fst ∨ ∃ s ∈ S, f.timestep < s.1 ∧ s.1 < m) →
    (∀ ss, ss <:+ S → (fs = [] ∨ m ∈ ss.map Prod.fst) → (expReader m fe fs ss).2 = fe) ∧
    ∀ (cur : Int × List Nat) ss, (cur :: ss) <:+ S → m ∈ (cur :: ss).map Prod.fst →
      (catchFrames m fe cur fs ss).2 = fe := by
  induction n with
  | zero =>
    intro fs h _ _ _
    have : fs = [] := List.length_eq_zero_iff.1 (by omega)
    subst this
    exact ⟨fun ss _ _ => by simp only [expReader], fun cur ss _ _ => by simp only [catchFrames]⟩
  | succ n ih =>
    intro fs h hle hinc hK
    cases fs with
    | nil => exact ⟨fun ss _ _ => by simp only [expReader], fun cur ss _ _ => by simp only [catchFrames]⟩
    | cons f fs =>
      unfold Increasing at hinc
      obtain ⟨hf, hinc'⟩ := List.pairwise_cons.1 hinc
      obtain ⟨i1, i2⟩ := ih fs (by simpa using h) (fun g hg => hle g (List.mem_cons_of_mem _ hg)) hinc'
        (fun g hg => hK g (List.mem_cons_of_mem _ hg))
      have hfm := hle f List.mem_cons_self
      -- going on after a step
      have key : ∀ (c : Int × List Nat) (ss : List (Int × List Nat)), (c :: ss) <:+ S →
          m ∈ (c :: ss).map Prod.fst → (c.1 = m → f.timestep = m) →
          (emit m c f (expReader m fe fs ss)).2 = fe := by
        intro c ss h2 h3 h4
        rw [emit_snd f (hSm c (h2.subset List.mem_cons_self))]
        refine i1 ss ((List.suffix_cons c ss).trans h2) ?_
        rw [List.map_cons, List.mem_cons] at h3
        rcases h3 with h3 | h3
        · left
          cases fs with
          | nil => rfl
          | cons g gs =>
            have a1 := hf g List.mem_cons_self
            have a2 := hle g (List.mem_cons_of_mem _ List.mem_cons_self)
            have := h4 h3.symm
            omega
        · exact Or.inr h3
      constructor
      · intro ss h2 h3
        have h3 : m ∈ ss.map Prod.fst := h3.resolve_left (by simp)
        cases ss with
        | nil => simp at h3
        | cons cur ss =>
          rw [expReader]
          split
          · exact i2 cur ss h2 h3
          · split
            · rename_i h4 h5
              cases hq : catchSteps f.timestep cur ss with
              | none =>
                exfalso
                obtain ⟨s, hs, e⟩ := List.mem_map.1 h3
                have := catchSteps_none _ _ _ hq s hs
                omega
              | some q =>
                dsimp only
                have hP := hS.sublist h2.sublist
                obtain ⟨a1, pre, a2, a3⟩ := catchSteps_first _ _ _ _ hq
                have hsuf : (q.1 :: q.2) <:+ S := List.IsSuffix.trans ⟨pre, a2.symm⟩ h2
                have hP' := List.pairwise_cons.1 (hS.sublist hsuf.sublist)
                -- a step that is not before the frame is not before the one found
                have hnot : ∀ s ∈ S, f.timestep ≤ s.1 → q.1.1 ≤ s.1 := by
                  intro s hs hge
                  obtain ⟨P, hP0⟩ := h2
                  rw [← hP0, List.mem_append] at hs
                  rcases hs with hs | hs
                  · rw [← hP0, List.pairwise_append] at hS
                    have := hS.2.2 s hs cur List.mem_cons_self
                    omega
                  · rw [a2, List.mem_append] at hs
                    rcases hs with hs | hs
                    · have := a3 s hs
                      omega
                    · rcases List.mem_cons.1 hs with rfl | hs
                      · exact le_refl _
                      · exact (hP'.1 s hs).le
                refine key q.1 q.2 hsuf ?_ ?_
                · rw [a2, List.map_append, List.mem_append] at h3
                  refine h3.resolve_left (fun h3 => ?_)
                  obtain ⟨s, hs, e⟩ := List.mem_map.1 h3
                  have := a3 s hs
                  omega
                · intro he
                  rcases hK f List.mem_cons_self with hk | ⟨s, hs, g1, g2⟩
                  · obtain ⟨s, hs, e⟩ := List.mem_map.1 hk
                    have := hnot s hs (by omega)
                    omega
                  · have := hnot s hs (by omega)
                    omega
            · exact key cur ss h2 h3 (by omega)
      · intro cur ss h2 h3
        rw [catchFrames]
        split
        · exact i2 cur ss h2 h3
        · exact key cur ss h2 h3 (by omega)

/-- The same when no step is missing before the last frame. -/
theorem exp_snd_steps (m : Int) (fe : Option PyErr) (n : Nat) :
    ∀ (fs : List (GFrame α)), fs.length ≤ n → (∀ f ∈ fs, f.timestep ≤ m) → Increasing fs →
    (∀ ss : List (Int × List Nat), ss.Pairwise (fun a b => a.1 < b.1) → (∀ s ∈ ss, s.1 ≤ m) →
      (∀ s ∈ ss, (∃ f ∈ fs, s.1 ≤ f.timestep) → ∃ f ∈ fs, f.timestep = s.1) →
      (fs = [] ∨ m ∈ ss.map Prod.fst) → (expReader m fe fs ss).2 = fe) ∧
    ∀ (cur : Int × List Nat) ss, (cur :: ss).Pairwise (fun a b => a.1 < b.1) →
      (∀ s ∈ cur :: ss, s.1 ≤ m) →
      (∀ s ∈ cur :: ss, (∃ f ∈ fs, s.1 ≤ f.timestep) → ∃ f ∈ fs, f.timestep = s.1) →
      m ∈ (cur :: ss).map Prod.fst → (catchFrames m fe cur fs ss).2 = fe := by
  induction n with
  | zero =>
    intro fs h _ _
    have : fs = [] := List.length_eq_zero_iff.1 (by omega)
    subst this
    exact ⟨fun ss _ _ _ _ => by simp only [expReader], fun cur ss _ _ _ _ => by simp only [catchFrames]⟩
  | succ n ih =>
    intro fs h hle hinc
    cases fs with
    | nil =>
      exact ⟨fun ss _ _ _ _ => by simp only [expReader], fun cur ss _ _ _ _ => by simp only [catchFrames]⟩
    | cons f fs =>
      unfold Increasing at hinc
      obtain ⟨hf, hinc'⟩ := List.pairwise_cons.1 hinc
      obtain ⟨i1, i2⟩ := ih fs (by simpa using h) (fun g hg => hle g (List.mem_cons_of_mem _ hg)) hinc'
      have hfm := hle f List.mem_cons_self
      -- later steps are those of later frames
      have hsub : ∀ ss : List (Int × List Nat), (∀ s ∈ ss, f.timestep < s.1) →
          (∀ s ∈ ss, (∃ g ∈ f :: fs, s.1 ≤ g.timestep) → ∃ g ∈ f :: fs, g.timestep = s.1) →
          ∀ s ∈ ss, (∃ g ∈ fs, s.1 ≤ g.timestep) → ∃ g ∈ fs, g.timestep = s.1 := by
        intro ss hlt hM s hs hex
        obtain ⟨g, hg, hgs⟩ := hex
        obtain ⟨g', hg', he⟩ := hM s hs ⟨g, List.mem_cons_of_mem _ hg, hgs⟩
        rcases List.mem_cons.1 hg' with rfl | hg'
        · have := hlt s hs
          omega
        · exact ⟨g', hg', he⟩
      -- going on after a step
      have key : ∀ (c : Int × List Nat) (ss : List (Int × List Nat)),
          (c :: ss).Pairwise (fun a b => a.1 < b.1) → (∀ s ∈ c :: ss, s.1 ≤ m) →
          (∀ s ∈ c :: ss, (∃ g ∈ f :: fs, s.1 ≤ g.timestep) → ∃ g ∈ f :: fs, g.timestep = s.1) →
          m ∈ (c :: ss).map Prod.fst → c.1 ≤ f.timestep →
          f.timestep = c.1 ∧ (emit m c f (expReader m fe fs ss)).2 = fe := by
        intro c ss hp hm hM h3 h4
        have heq : f.timestep = c.1 := by
          obtain ⟨g, hg, he⟩ := hM c List.mem_cons_self ⟨f, List.mem_cons_self, h4⟩
          rcases List.mem_cons.1 hg with rfl | hg
          · exact he
          · have := hf g hg
            omega
        refine ⟨heq, ?_⟩
        rw [emit_snd f (hm c List.mem_cons_self)]
        have hp' := List.pairwise_cons.1 hp
        refine i1 ss hp'.2 (fun s hs => hm s (List.mem_cons_of_mem _ hs))
          (hsub ss (fun s hs => by have := hp'.1 s hs; omega)
            (fun s hs => hM s (List.mem_cons_of_mem _ hs))) ?_
        rw [List.map_cons, List.mem_cons] at h3
        rcases h3 with h3 | h3
        · left
          cases fs with
          | nil => rfl
          | cons g gs =>
            have a1 := hf g List.mem_cons_self
            have a2 := hle g (List.mem_cons_of_mem _ List.mem_cons_self)
            omega
        · exact Or.inr h3
      -- a frame before the step
      have skip : ∀ (c : Int × List Nat) (ss : List (Int × List Nat)),
          (c :: ss).Pairwise (fun a b => a.1 < b.1) → (∀ s ∈ c :: ss, s.1 ≤ m) →
          (∀ s ∈ c :: ss, (∃ g ∈ f :: fs, s.1 ≤ g.timestep) → ∃ g ∈ f :: fs, g.timestep = s.1) →
          m ∈ (c :: ss).map Prod.fst → f.timestep < c.1 → (catchFrames m fe c fs ss).2 = fe := by
        intro c ss hp hm hM h3 h4
        refine i2 c ss hp hm (hsub _ (fun s hs => ?_) hM) h3
        rcases List.mem_cons.1 hs with rfl | hs
        · exact h4
        · have := (List.pairwise_cons.1 hp).1 s hs
          omega
      constructor
      · intro ss hp hm hM h3
        have h3 : m ∈ ss.map Prod.fst := h3.resolve_left (by simp)
        cases ss with
        | nil => simp at h3
        | cons cur ss =>
          rw [expReader]
          split
          · exact skip cur ss hp hm hM h3 (by omega)
          · obtain ⟨e1, e2⟩ := key cur ss hp hm hM h3 (by omega)
            rw [if_neg (by omega)]
            exact e2
      · intro cur ss hp hm hM h3
        rw [catchFrames]
        split
        · exact skip cur ss hp hm hM h3 (by omega)
        · exact (key cur ss hp hm hM h3 (by omega)).2

/-- With a frame beyond the last step at the head nothing more is read. -/
theorem exp_beyond (m : Int) (fe : Option PyErr) (f : GFrame α) (fs : List (GFrame α))
    (ss : List (Int × List Nat)) (hm : ∀ s ∈ ss, s.1 ≤ m) (hf : m < f.timestep) :
    expReader m fe (f :: fs) ss = ([], none) := by
  cases ss with
  | nil => simp only [expReader]
  | cons cur ss =>
    have hc := hm cur List.mem_cons_self
    rw [expReader, if_neg (by omega), if_pos (by omega)]
    cases hq : catchSteps f.timestep cur ss with
    | none => rfl
    | some q =>
      obtain ⟨a1, pre, a2, -⟩ := catchSteps_first _ _ _ _ hq
      have := hm q.1 (by rw [a2]; simp)
      omega

/-- With two frames beyond the last step, the reader ends before the end of the file. -/
theorem exp_two_beyond (m : Int) (fe : Option PyErr) (n : Nat) :
    ∀ (fs : List (GFrame α)), fs.length ≤ n → Increasing fs →
    2 ≤ (fs.filter (fun f => decide (m < f.timestep))).length →
    (∀ ss : List (Int × List Nat), (∀ s ∈ ss, s.1 ≤ m) → (expReader m fe fs ss).2 = none) ∧
    ∀ (cur : Int × List Nat) ss, (∀ s ∈ cur :: ss, s.1 ≤ m) → (catchFrames m fe cur fs ss).2 = none := by
  induction n with
  | zero =>
    intro fs h _ h2
    have : fs = [] := List.length_eq_zero_iff.1 (by omega)
    subst this
    simp at h2
  | succ n ih =>
    intro fs h hinc h2
    cases fs with
    | nil => simp at h2
    | cons f fs =>
      unfold Increasing at hinc
      obtain ⟨hf, hinc'⟩ := List.pairwise_cons.1 hinc
      by_cases hfm : m < f.timestep
      · -- the next frame is beyond as well
        have hnext : ∀ (ss : List (Int × List Nat)), (∀ s ∈ ss, s.1 ≤ m) →
            (expReader m fe fs ss).2 = none := by
          intro ss hs
          cases fs with
          | nil =>
            have := List.length_filter_le (fun f : GFrame α => decide (m < f.timestep)) [f]
            simp only [List.length_cons, List.length_nil] at this
            omega
          | cons g gs =>
            rw [exp_beyond m fe g gs ss hs (by have := hf g List.mem_cons_self; omega)]
        refine ⟨fun ss hs => by rw [exp_beyond m fe f fs ss hs hfm], fun cur ss hs => ?_⟩
        have hc := hs cur List.mem_cons_self
        rw [catchFrames, if_neg (by omega), emit_snd f hc]
        exact hnext ss (fun s h => hs s (List.mem_cons_of_mem _ h))
      · rw [List.filter_cons, if_neg (by simpa using hfm)] at h2
        obtain ⟨i1, i2⟩ := ih fs (by simpa using h) hinc' h2
        have key : ∀ (c : Int × List Nat) (ss : List (Int × List Nat)), (∀ s ∈ c :: ss, s.1 ≤ m) →
            (emit m c f (expReader m fe fs ss)).2 = none := by
          intro c ss hs
          rw [emit_snd f (hs c List.mem_cons_self)]
          exact i1 ss (fun s h => hs s (List.mem_cons_of_mem _ h))
        constructor
        · intro ss hs
          cases ss with
          | nil => simp only [expReader]
          | cons cur ss =>
            rw [expReader]
            split
            · exact i2 cur ss hs
            · split
              · cases hq : catchSteps f.timestep cur ss with
                | none => rfl
                | some q =>
                  obtain ⟨-, pre, a2, -⟩ := catchSteps_first _ _ _ _ hq
                  exact key q.1 q.2 (fun s h => hs s (by rw [a2]; exact List.mem_append_right _ h))
              · exact key cur ss hs
        · intro cur ss hs
          rw [catchFrames]
          split
          · exact i2 cur ss hs
          · exact key cur ss hs

/-! ## Opening a trajectory -/

theorem mem_rangeStep {n k i : Nat} : i ∈ rangeStep n k ↔ i < n ∧ i % k = 0 := by
  unfold rangeStep
  rw [List.mem_filter, List.mem_range, decide_eq_true_eq]

theorem rangeStep_append (n r k : Nat) (h : n % k = 0) :
    ∃ tl, rangeStep (n + (r + 1)) k = rangeStep n k ++ n :: tl := by
  unfold rangeStep
  rw [List.range_add, List.filter_append, List.range_succ_eq_map, List.map_cons, List.filter_cons,
    if_pos (by simpa using h)]
  exact ⟨_, rfl⟩

theorem openLoop_congr (r1 r2 : List (Raw α)) : ∀ is : List Nat, (∀ i ∈ is, r1[i]? = r2[i]?) →
    openLoop r1 is = openLoop r2 is := by
  intro is
  induction is with
  | nil => intro _; rfl
  | cons i is ih =>
    intro h
    rw [openLoop, openLoop, h i List.mem_cons_self, ih (fun j hj => h j (List.mem_cons_of_mem _ hj))]

theorem openLoop_append (pre rest : List (Raw α)) (hc : OnlyCorrupt pre) :
    ∀ is js : List Nat, (∀ i ∈ is, i < pre.length) →
    openLoop (pre ++ rest) (is ++ js) =
      ((openLoop pre is).1 ++ (openLoop (pre ++ rest) js).1, (openLoop (pre ++ rest) js).2) := by
  intro is js
  induction is with
  | nil => intro _; rfl
  | cons i is ih =>
    intro h
    have hi := h i List.mem_cons_self
    have ih := ih (fun j hj => h j (List.mem_cons_of_mem _ hj))
    rw [List.cons_append, openLoop, openLoop, List.getElem?_append_left hi, List.getElem?_eq_getElem hi]
    cases hr : pre[i] with
    | ok f => simp only [ih, List.cons_append]
    | error e =>
      obtain rfl := hc _ (List.getElem_mem hi) e hr
      simp only [ih]

end Verif.Gsd
