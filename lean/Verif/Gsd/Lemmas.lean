import Mathlib.Tactic.Linarith
import Mathlib.Data.List.Nodup
import Verif.Gsd.Spec
import Verif.StepSize.Trace
/-!
# Helper lemmas for the gsd readers
-/

namespace Verif.Gsd

open scoped List

variable {α : Type}

theorem iterTrajectory_eq (raws : List (Raw α)) (h : OnlyCorrupt raws) :
    iterTrajectory raws = (readable raws, none) := by
  induction raws with
  | nil => rfl
  | cons r raws ih =>
    have ih := ih (fun r hr e he => h r (List.mem_cons_of_mem _ hr) e he)
    cases r with
    | ok f => simp only [iterTrajectory, ih]; rfl
    | error e =>
      obtain rfl := h (.error e) (by simp) e rfl
      simp only [iterTrajectory, ih]; rfl

theorem iterTrajectory_withoutCorrupt (raws : List (Raw α)) :
    iterTrajectory (withoutCorrupt raws) = iterTrajectory raws := by
  induction raws with
  | nil => rfl
  | cons r raws ih =>
    unfold withoutCorrupt at ih ⊢
    rw [List.filter_cons]
    cases r with
    | ok f => simp only [if_true, iterTrajectory, ih]
    | error e => cases e <;> simp [iterTrajectory, ih]

/-- The frames of `iter_trajectory` are among the readable ones even if another exception stops
it. -/
theorem iterTrajectory_prefix (raws : List (Raw α)) :
    (iterTrajectory raws).1 <+: readable raws := by
  induction raws with
  | nil => simp [iterTrajectory, readable]
  | cons r raws ih =>
    cases r with
    | ok f =>
      simp only [iterTrajectory]
      have : readable (.ok f :: raws) = f :: readable raws := rfl
      rw [this, List.cons_prefix_cons]
      exact ⟨rfl, ih⟩
    | error e =>
      have : readable (.error e :: raws : List (Raw α)) = readable raws := rfl
      rw [this]
      cases e <;> first | exact ih | exact List.nil_prefix

/-! ## Exponential reader -/

theorem catchSteps_suffix (t : Int) : ∀ (ss : List (Int × List Nat)) (cur cur' : Int × List Nat)
    (ss' : List (Int × List Nat)), catchSteps t cur ss = some (cur', ss') →
    (cur' :: ss') <:+ (cur :: ss) ∧ t ≤ cur'.1 := by
  intro ss
  induction ss with
  | nil =>
    intro cur cur' ss' h
    unfold catchSteps at h
    split at h
    · simp at h
    · simp only [Option.some.injEq, Prod.mk.injEq] at h
      obtain ⟨rfl, rfl⟩ := h
      exact ⟨List.suffix_refl _, by omega⟩
  | cons s ss ih =>
    intro cur cur' ss' h
    unfold catchSteps at h
    split at h
    · obtain ⟨h1, h2⟩ := ih s cur' ss' h
      exact ⟨h1.trans (List.suffix_cons _ _), h2⟩
    · simp only [Option.some.injEq, Prod.mk.injEq] at h
      obtain ⟨rfl, rfl⟩ := h
      exact ⟨List.suffix_refl _, by omega⟩

theorem catchSteps_none (t : Int) : ∀ (ss : List (Int × List Nat)) (cur : Int × List Nat),
    catchSteps t cur ss = none → ∀ s ∈ cur :: ss, s.1 < t := by
  intro ss
  induction ss with
  | nil =>
    intro cur h
    unfold catchSteps at h
    split at h
    · rename_i h1
      intro s hs
      simp at hs
      subst hs
      exact h1
    · simp at h
  | cons s ss ih =>
    intro cur h
    unfold catchSteps at h
    split at h
    · rename_i h1
      intro x hx
      rw [List.mem_cons] at hx
      rcases hx with rfl | hx
      · exact h1
      · exact ih s h x hx
    · simp at h

/-- If the wanted timestep is among the steps, the iterator stops exactly on it. -/
theorem catchSteps_found (t : Int) : ∀ (ss : List (Int × List Nat)) (cur : Int × List Nat),
    (cur :: ss).Pairwise (fun a b => a.1 < b.1) → t ∈ (cur :: ss).map Prod.fst →
    ∃ cur' ss', catchSteps t cur ss = some (cur', ss') ∧ cur'.1 = t ∧
      (cur' :: ss') <:+ (cur :: ss) := by
  intro ss
  induction ss with
  | nil =>
    intro cur _ h
    simp at h
    refine ⟨cur, [], ?_, h.symm, List.suffix_refl _⟩
    unfold catchSteps
    rw [if_neg (by omega)]
  | cons s ss ih =>
    intro cur hp h
    rw [List.pairwise_cons] at hp
    unfold catchSteps
    by_cases hlt : cur.1 < t
    · rw [if_pos hlt]
      have : t ∈ (s :: ss).map Prod.fst := by
        rw [List.map_cons, List.mem_cons] at h
        rcases h with h | h
        · omega
        · exact h
      obtain ⟨cur', ss', h1, h2, h3⟩ := ih s hp.2 this
      exact ⟨cur', ss', h1, h2, h3.trans (List.suffix_cons _ _)⟩
    · rw [if_neg hlt]
      refine ⟨cur, s :: ss, rfl, ?_, List.suffix_refl _⟩
      rw [List.map_cons, List.mem_cons] at h
      rcases h with h | h
      · exact h.symm
      · obtain ⟨x, hx, rfl⟩ := List.mem_map.1 h
        have := hp.1 x hx
        omega

theorem emit_sublist (m : Int) (cur : Int × List Nat) (f : GFrame α) (fs : List (GFrame α))
    (ss : List (Int × List Nat)) (next : List (List Nat × GFrame α) × Option PyErr)
    (h1 : next.1.map Prod.snd <+ fs) (h2 : next.1.map (fun p => (p.2.timestep, p.1)) <+ ss) :
    (emit m cur f next).1.map Prod.snd <+ f :: fs ∧
      (emit m cur f next).1.map (fun p => (p.2.timestep, p.1)) <+ cur :: ss := by
  unfold emit
  split
  · simp
  · split
    · rename_i h
      simp only [List.map_cons]
      refine ⟨h1.cons_cons _, ?_⟩
      have : (f.timestep, cur.2) = cur := by rw [← h]
      rw [this]
      exact h2.cons_cons _
    · exact ⟨h1.cons _, h2.cons _⟩

theorem exp_sublist (m : Int) (fe : Option PyErr) : ∀ (fs : List (GFrame α)),
    (∀ ss, (expReader m fe fs ss).1.map Prod.snd <+ fs ∧
      (expReader m fe fs ss).1.map (fun p => (p.2.timestep, p.1)) <+ ss) ∧
    (∀ cur ss, (catchFrames m fe cur fs ss).1.map Prod.snd <+ fs ∧
      (catchFrames m fe cur fs ss).1.map (fun p => (p.2.timestep, p.1)) <+ cur :: ss) := by
  intro fs
  induction fs with
  | nil => exact ⟨fun ss => by simp [expReader], fun cur ss => by simp [catchFrames]⟩
  | cons f fs ih =>
    obtain ⟨ih1, ih2⟩ := ih
    refine ⟨?_, ?_⟩
    · intro ss
      cases ss with
      | nil => simp [expReader]
      | cons cur ss =>
        rw [expReader]
        split
        · obtain ⟨h1, h2⟩ := ih2 cur ss
          exact ⟨h1.cons _, h2⟩
        · split
          · cases hc : catchSteps f.timestep cur ss with
            | none => simp
            | some q =>
              obtain ⟨cur', ss'⟩ := q
              simp only
              obtain ⟨h1, h2⟩ := emit_sublist m cur' f fs ss' _ (ih1 ss').1 (ih1 ss').2
              exact ⟨h1, h2.trans (catchSteps_suffix _ _ _ _ _ hc).1.sublist⟩
          · exact emit_sublist m cur f fs ss _ (ih1 ss).1 (ih1 ss).2
    · intro cur ss
      rw [catchFrames]
      split
      · obtain ⟨h1, h2⟩ := ih2 cur ss
        exact ⟨h1.cons _, h2⟩
      · exact emit_sublist m cur f fs ss _ (ih1 ss).1 (ih1 ss).2

/-- The reader ends normally when the frames do. -/
theorem exp_end (m : Int) : ∀ (fs : List (GFrame α)),
    (∀ ss, (expReader m none fs ss).2 = none) ∧
    (∀ cur ss, (catchFrames m none cur fs ss).2 = none) := by
  intro fs
  induction fs with
  | nil => exact ⟨fun ss => by simp [expReader], fun cur ss => by simp [catchFrames]⟩
  | cons f fs ih =>
    obtain ⟨ih1, ih2⟩ := ih
    have he : ∀ cur f (nx : List (List Nat × GFrame α) × Option PyErr), nx.2 = none →
        (emit m cur f nx).2 = none := by
      intro cur f nx h
      unfold emit
      split
      · rfl
      · split <;> exact h
    refine ⟨?_, ?_⟩
    · intro ss
      cases ss with
      | nil => simp [expReader]
      | cons cur ss =>
        rw [expReader]
        split
        · exact ih2 cur ss
        · split
          · cases hc : catchSteps f.timestep cur ss with
            | none => rfl
            | some q => exact he _ _ _ (ih1 _)
          · exact he _ _ _ (ih1 _)
    · intro cur ss
      rw [catchFrames]
      split
      · exact ih2 cur ss
      · exact he _ _ _ (ih1 _)

/-- Completeness when every frame within the run is on the series. -/
theorem exp_complete_frames (m : Int) (fe : Option PyErr) : ∀ (fs : List (GFrame α))
    (ss : List (Int × List Nat)), Increasing fs → ss.Pairwise (fun a b => a.1 < b.1) →
    (∀ s ∈ ss, s.1 ≤ m) → (∀ f ∈ fs, f.timestep ≤ m → f.timestep ∈ ss.map Prod.fst) →
    (expReader m fe fs ss).1.map Prod.snd = fs.filter (fun f => decide (f.timestep ≤ m)) := by
  intro fs
  induction fs with
  | nil => intro ss _ _ _ _; simp [expReader]
  | cons f fs ih =>
    intro ss hi hp hm hsub
    unfold Increasing at hi
    rw [List.pairwise_cons] at hi
    have hlate : m < f.timestep → (f :: fs).filter (fun f => decide (f.timestep ≤ m)) = [] := by
      intro h
      rw [List.filter_eq_nil_iff]
      intro g hg
      rw [List.mem_cons] at hg
      rcases hg with rfl | hg
      · simpa using h
      · have := hi.1 g hg
        simp; omega
    cases ss with
    | nil =>
      have : m < f.timestep := by
        by_contra hc
        have := hsub f (by simp) (by omega)
        simp at this
      rw [hlate this]
      simp [expReader]
    | cons cur ss =>
      have hcm := hm cur (by simp)
      have hnot : ¬ cur.1 > f.timestep := by
        intro hgt
        have h1 := hsub f (by simp) (by omega)
        rw [List.map_cons, List.mem_cons] at h1
        rw [List.pairwise_cons] at hp
        rcases h1 with h1 | h1
        · omega
        · obtain ⟨x, hx, hxe⟩ := List.mem_map.1 h1
          have := hp.1 x hx
          omega
      -- a turn that yields f and continues with ss'
      have hturn : ∀ cur' ss', f.timestep ≤ m → cur'.1 = f.timestep → (cur' :: ss') <:+ (cur :: ss) →
          (emit m cur' f (expReader m fe fs ss')).1.map Prod.snd
            = (f :: fs).filter (fun f => decide (f.timestep ≤ m)) := by
        intro cur' ss' hfm he hsuf
        have hp' : (cur' :: ss').Pairwise (fun a b => a.1 < b.1) := hp.sublist hsuf.sublist
        rw [List.pairwise_cons] at hp'
        unfold emit
        rw [if_neg (by omega), if_pos he, List.map_cons, List.filter_cons, if_pos (by simpa using hfm)]
        congr 1
        apply ih ss' hi.2 hp'.2
        · intro s hs
          exact hm s (hsuf.subset (List.mem_cons_of_mem _ hs))
        · intro g hg hgm
          have hfg := hi.1 g hg
          have h1 := hsub g (List.mem_cons_of_mem _ hg) hgm
          obtain ⟨x, hx, hxe⟩ := List.mem_map.1 h1
          obtain ⟨pre, hpre⟩ := hsuf
          rw [← hpre, List.mem_append] at hx
          rcases hx with hx | hx
          · exfalso
            rw [← hpre, List.pairwise_append] at hp
            have := hp.2.2 x hx cur' (by simp)
            omega
          · rw [List.mem_cons] at hx
            rcases hx with rfl | hx
            · omega
            · exact List.mem_map.2 ⟨x, hx, hxe⟩
      rw [expReader, if_neg hnot]
      by_cases hlt : cur.1 < f.timestep
      · rw [if_pos hlt]
        by_cases hfm : f.timestep ≤ m
        · obtain ⟨cur', ss', h1, h2, h3⟩ := catchSteps_found f.timestep ss cur hp
            (hsub f (by simp) hfm)
          rw [h1]
          exact hturn cur' ss' hfm h2 h3
        · rw [hlate (by omega)]
          cases hc : catchSteps f.timestep cur ss with
          | none => simp
          | some q =>
            exfalso
            obtain ⟨cur', ss'⟩ := q
            obtain ⟨h1, h2⟩ := catchSteps_suffix _ _ _ _ _ hc
            have := hm cur' (h1.subset (by simp))
            omega
      · rw [if_neg hlt]
        exact hturn cur ss (by omega) (by omega) (List.suffix_refl _)

/-- Completeness when every step up to the end of the file is in the file. -/
theorem exp_complete_steps (m : Int) (fe : Option PyErr) : ∀ (fs : List (GFrame α)),
    (∀ (ss : List (Int × List Nat)), Increasing fs → ss.Pairwise (fun a b => a.1 < b.1) →
      (∀ s ∈ ss, s.1 ≤ m) →
      (∀ s ∈ ss, (∃ f ∈ fs, s.1 ≤ f.timestep) → ∃ f ∈ fs, f.timestep = s.1) →
      (expReader m fe fs ss).1.map Prod.snd
        = fs.filter (fun f => decide (f.timestep ∈ ss.map Prod.fst))) ∧
    (∀ (cur : Int × List Nat) (ss : List (Int × List Nat)), Increasing fs →
      (cur :: ss).Pairwise (fun a b => a.1 < b.1) → (∀ s ∈ cur :: ss, s.1 ≤ m) →
      (∀ s ∈ cur :: ss, (∃ f ∈ fs, s.1 ≤ f.timestep) → ∃ f ∈ fs, f.timestep = s.1) →
      (catchFrames m fe cur fs ss).1.map Prod.snd
        = fs.filter (fun f => decide (f.timestep ∈ (cur :: ss).map Prod.fst))) := by
  intro fs
  induction fs with
  | nil => exact ⟨fun ss _ _ _ _ => by simp [expReader], fun cur ss _ _ _ _ => by simp [catchFrames]⟩
  | cons f fs ih =>
    obtain ⟨ih1, ih2⟩ := ih
    -- a frame before the current step is skipped
    have hskip : ∀ (cur : Int × List Nat) (ss : List (Int × List Nat)), Increasing (f :: fs) →
        (cur :: ss).Pairwise (fun a b => a.1 < b.1) → (∀ s ∈ cur :: ss, s.1 ≤ m) →
        (∀ s ∈ cur :: ss, (∃ g ∈ f :: fs, s.1 ≤ g.timestep) → ∃ g ∈ f :: fs, g.timestep = s.1) →
        f.timestep < cur.1 →
        (catchFrames m fe cur fs ss).1.map Prod.snd
          = (f :: fs).filter (fun g => decide (g.timestep ∈ (cur :: ss).map Prod.fst)) := by
      intro cur ss hi hp hm hs hlt
      unfold Increasing at hi
      rw [List.pairwise_cons] at hi
      have hge : ∀ s ∈ cur :: ss, cur.1 ≤ s.1 := by
        intro s hs'
        rw [List.mem_cons] at hs'
        rcases hs' with rfl | hs'
        · exact le_refl _
        · rw [List.pairwise_cons] at hp
          exact (hp.1 s hs').le
      rw [List.filter_cons, if_neg]
      · apply ih2 cur ss hi.2 hp hm
        intro s hs1 hex
        obtain ⟨g, hg, hgs⟩ := hex
        obtain ⟨g', hg', he⟩ := hs s hs1 ⟨g, List.mem_cons_of_mem _ hg, hgs⟩
        have := hge s hs1
        rw [List.mem_cons] at hg'
        rcases hg' with rfl | hg'
        · omega
        · exact ⟨g', hg', he⟩
      · simp only [decide_eq_true_eq, List.mem_map, not_exists, not_and]
        intro s hs1 he
        have := hge s hs1
        omega
    -- a frame on the current step is yielded
    have hyield : ∀ (cur : Int × List Nat) (ss : List (Int × List Nat)), Increasing (f :: fs) →
        (cur :: ss).Pairwise (fun a b => a.1 < b.1) → (∀ s ∈ cur :: ss, s.1 ≤ m) →
        (∀ s ∈ cur :: ss, (∃ g ∈ f :: fs, s.1 ≤ g.timestep) → ∃ g ∈ f :: fs, g.timestep = s.1) →
        f.timestep = cur.1 →
        (emit m cur f (expReader m fe fs ss)).1.map Prod.snd
          = (f :: fs).filter (fun g => decide (g.timestep ∈ (cur :: ss).map Prod.fst)) := by
      intro cur ss hi hp hm hs heq
      unfold Increasing at hi
      rw [List.pairwise_cons] at hi hp
      have hcm := hm cur (by simp)
      unfold emit
      rw [if_neg (by omega), if_pos heq.symm, List.map_cons, List.filter_cons, if_pos]
      · congr 1
        rw [ih1 ss hi.2 hp.2 (fun s h => hm s (List.mem_cons_of_mem _ h))]
        · apply List.filter_congr
          intro g hg
          have := hi.1 g hg
          have hne : ¬ g.timestep = cur.1 := by omega
          simp only [List.map_cons, List.mem_cons, hne, false_or]
        · intro s hs1 hex
          obtain ⟨g, hg, hgs⟩ := hex
          obtain ⟨g', hg', he⟩ := hs s (List.mem_cons_of_mem _ hs1)
            ⟨g, List.mem_cons_of_mem _ hg, hgs⟩
          have := hp.1 s hs1
          rw [List.mem_cons] at hg'
          rcases hg' with rfl | hg'
          · omega
          · exact ⟨g', hg', he⟩
      · simp [heq]
    -- a frame beyond the current step contradicts the assumption
    have hbeyond : ∀ (cur : Int × List Nat) (ss : List (Int × List Nat)), Increasing (f :: fs) →
        (∀ s ∈ cur :: ss, (∃ g ∈ f :: fs, s.1 ≤ g.timestep) → ∃ g ∈ f :: fs, g.timestep = s.1) →
        ¬ cur.1 < f.timestep := by
      intro cur ss hi hs hlt
      unfold Increasing at hi
      rw [List.pairwise_cons] at hi
      obtain ⟨g, hg, he⟩ := hs cur (by simp) ⟨f, by simp, hlt.le⟩
      rw [List.mem_cons] at hg
      rcases hg with rfl | hg
      · omega
      · have := hi.1 g hg
        omega
    refine ⟨?_, ?_⟩
    · intro ss hi hp hm hs
      cases ss with
      | nil => simp [expReader]
      | cons cur ss =>
        rw [expReader]
        by_cases hgt : cur.1 > f.timestep
        · rw [if_pos hgt]
          exact hskip cur ss hi hp hm hs hgt
        · have hnb := hbeyond cur ss hi hs
          rw [if_neg hgt, if_neg hnb]
          exact hyield cur ss hi hp hm hs (by omega)
    · intro cur ss hi hp hm hs
      rw [catchFrames]
      by_cases hlt : f.timestep < cur.1
      · rw [if_pos hlt]
        exact hskip cur ss hi hp hm hs hlt
      · have hnb := hbeyond cur ss hi hs
        rw [if_neg hlt]
        exact hyield cur ss hi hp hm hs (by omega)

/-! ## Linear reader -/

/-- Number of keyframes after having seen timesteps `ts`, starting from `n`. -/
def kfCount (interval kmax : Int) (n : Nat) (ts : List Int) : Nat :=
  ts.foldl (fun n t => if t % interval = 0 ∧ (n : Int) ≤ kmax then n + 1 else n) n

theorem kfCount_eq (interval kmax : Int) : ∀ (ts : List Int) (n : Nat),
    (n : Int) ≤ max 0 (kmax + 1) →
    (kfCount interval kmax n ts : Int) =
      min ((n : Int) + (ts.filter (fun t => decide (t % interval = 0))).length) (max 0 (kmax + 1)) := by
  intro ts
  induction ts with
  | nil => intro n h; simp [kfCount]; omega
  | cons t ts ih =>
    intro n h
    unfold kfCount
    rw [List.foldl_cons]
    change ((kfCount interval kmax _ ts : Nat) : Int) = _
    rw [List.filter_cons]
    by_cases h1 : t % interval = 0
    · by_cases h2 : (n : Int) ≤ kmax
      · rw [if_pos ⟨h1, h2⟩, ih (n + 1) (by push_cast; omega), if_pos (by simpa using h1)]
        simp only [List.length_cons]
        push_cast
        congr 1
        ring
      · rw [if_neg (fun h => h2 h.2), ih n h, if_pos (by simpa using h1)]
        simp only [List.length_cons]
        push_cast
        omega
    · rw [if_neg (fun h => h1 h.1), ih n h, if_neg (by simpa using h1)]

theorem updateIndex_range (interval kmax t : Int) (n : Nat) :
    updateIndex interval kmax t (List.range n) =
      List.range (kfCount interval kmax n [t]) := by
  unfold updateIndex kfCount
  simp only [List.length_range, List.foldl_cons, List.foldl_nil]
  split
  · rw [List.range_succ]
  · rfl

theorem linear_frames (stepsMax : Option Int) (interval kmax : Int) (hint : interval ≠ 0)
    (fe : Option PyErr) : ∀ (fs : List (GFrame α)) (il : List Nat),
    (linearReader stepsMax interval kmax fe fs il).1.map Prod.snd =
      fs.takeWhile (fun f => !stepsMax.any (fun m => decide (f.timestep > m))) := by
  intro fs
  induction fs with
  | nil => intro il; simp [linearReader]
  | cons f fs ih =>
    intro il
    rw [linearReader, if_neg hint, List.takeWhile_cons]
    cases hb : stepsMax.any (fun m => decide (f.timestep > m)) with
    | true => simp
    | false => simp [ih]

theorem linear_index (stepsMax : Option Int) (interval kmax : Int) (hint : interval ≠ 0)
    (fe : Option PyErr) : ∀ (fs : List (GFrame α)) (n j : Nat) (il : List Nat) (f : GFrame α),
    (linearReader stepsMax interval kmax fe fs (List.range n)).1[j]? = some (il, f) →
    il = List.range (kfCount interval kmax n ((fs.take (j + 1)).map GFrame.timestep)) := by
  intro fs
  induction fs with
  | nil => intro n j il f h; simp [linearReader] at h
  | cons g fs ih =>
    intro n j il f h
    rw [linearReader, if_neg hint] at h
    rw [updateIndex_range] at h
    cases hb : stepsMax.any (fun m => decide (g.timestep > m)) with
    | true => simp [hb] at h
    | false =>
      simp only [hb, Bool.false_eq_true, if_false] at h
      cases j with
      | zero =>
        simp at h
        rw [← h.1]
        simp
      | succ j =>
        rw [List.getElem?_cons_succ] at h
        have := ih _ j il f h
        rw [this]
        rw [List.take_succ_cons, List.map_cons]
        rfl

/-! ## Number of steps -/

theorem numStepsLoop_skip (raws : List (Raw α)) : ∀ (k r i : Nat),
    (∀ j < k, fromEnd raws (i + j) = some (.error .runtimeError)) →
    numStepsLoop raws (k + r) i = numStepsLoop raws r (i + k) := by
  intro k
  induction k with
  | zero => intro r i _; simp
  | succ k ih =>
    intro r i h
    have h0 := h 0 (by omega)
    rw [show k + 1 + r = (k + r) + 1 by omega, numStepsLoop]
    rw [Nat.add_zero] at h0
    rw [h0]
    simp only
    rw [ih r (i + 1) (fun j hj => by
      have := h (j + 1) (by omega)
      rwa [show i + 1 + j = i + (j + 1) by omega])]
    congr 1
    omega

theorem fromEnd_append (pre bad : List (Raw α)) (i : Nat) (hb : i ≤ bad.length) :
    fromEnd (pre ++ bad) i = bad[bad.length - i]? := by
  unfold fromEnd
  rw [if_pos (by rw [List.length_append]; omega), List.length_append,
    List.getElem?_append_right (by omega)]
  congr 1
  omega

theorem fromEnd_corrupt (pre bad : List (Raw α)) (hbad : ∀ r ∈ bad, r = .error .runtimeError)
    (i : Nat) (hi : 1 ≤ i) (hb : i ≤ bad.length) :
    fromEnd (pre ++ bad) i = some (.error .runtimeError) := by
  rw [fromEnd_append pre bad i hb]
  have hlt : bad.length - i < bad.length := by omega
  rw [List.getElem?_eq_getElem hlt]
  congr 1
  exact hbad _ (List.getElem_mem hlt)

/-! ## Opening a trajectory -/

theorem openLoop_eq (raws : List (Raw α)) (h : OnlyCorrupt raws) : ∀ (is : List Nat),
    (∀ i ∈ is, i < raws.length) →
    openLoop raws is = (is.filterMap (readableAt raws), none) := by
  intro is
  induction is with
  | nil => intro _; rfl
  | cons i is ih =>
    intro hlt
    have ih := ih (fun j hj => hlt j (List.mem_cons_of_mem _ hj))
    have hi := hlt i (by simp)
    rw [openLoop, List.filterMap_cons, readableAt, List.getElem?_eq_getElem hi]
    cases hr : raws[i] with
    | ok f => simp only [ih]
    | error e =>
      obtain rfl := h _ (List.getElem_mem hi) e hr
      simp only [ih]

theorem rangeStep_filterMap (g : Nat → Option (GFrame α)) (n k : Nat) (hk : 1 ≤ k)
    (hg : ∀ i, n ≤ i → g i = none) :
    (rangeStep n k).filterMap g = (List.range n).filterMap (fun j => g (j * k)) := by
  have hsort : rangeStep n k = ((List.range n).map (fun j => j * k)).filter
      (fun i => decide (i < n)) := by
    apply List.Perm.eq_of_pairwise (le := (· < ·))
    · intro a b _ _ h1 h2; omega
    · exact List.pairwise_lt_range.filter _
    · apply List.Pairwise.filter
      rw [List.pairwise_map]
      exact List.pairwise_lt_range.imp (fun h => Nat.mul_lt_mul_of_pos_right h (by omega))
    · rw [List.perm_ext_iff_of_nodup]
      · intro a
        simp only [rangeStep, List.mem_filter, List.mem_range, decide_eq_true_eq, List.mem_map]
        constructor
        · rintro ⟨h1, h2⟩
          refine ⟨⟨a / k, ?_, Nat.div_mul_cancel (Nat.dvd_of_mod_eq_zero h2)⟩, h1⟩
          exact lt_of_le_of_lt (Nat.div_le_self a k) h1
        · rintro ⟨⟨j, _, rfl⟩, h1⟩
          exact ⟨h1, Nat.mul_mod_left j k⟩
      · exact List.Pairwise.filter _ List.nodup_range
      · refine List.Pairwise.filter _ ?_
        refine List.Nodup.map ?_ List.nodup_range
        intro a b hab
        exact Nat.eq_of_mul_eq_mul_right (by omega) hab
  rw [hsort, List.filterMap_filter, List.filterMap_map]
  apply List.filterMap_congr
  intro j _
  simp only [Function.comp]
  split
  · rfl
  · rename_i h
    rw [hg]
    simpa using h

end Verif.Gsd
