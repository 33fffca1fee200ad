import Verif.Gsd.ErrorLemmas
/-!
# Lemmas for C169: where the exponential reader loses frames

A turn that begins with a frame on the series, and with no step after it used up, yields the frame.  After a
frame off the series the reader may have used up one step too many, or drop one frame too many; two frames on
the series in a row, or two steps in a row with their frames, put it right.
-/

namespace Verif.Gsd

variable {α : Type}

abbrev Sorted (ss : List (Int × List Nat)) : Prop := ss.Pairwise (fun a b => a.1 < b.1)

/-- `t` is one of the steps. -/
abbrev OnStep (t : Int) (ss : List (Int × List Nat)) : Prop := t ∈ ss.map Prod.fst

theorem onStep_le {m t : Int} {ss : List (Int × List Nat)} (h : OnStep t ss) (hm : ∀ s ∈ ss, s.1 ≤ m) :
    t ≤ m := by
  obtain ⟨s, hs, rfl⟩ := List.mem_map.1 h
  exact hm s hs

theorem onStep_after {t u : Int} {pre ss : List (Int × List Nat)} {cur : Int × List Nat}
    (hp : Sorted (pre ++ cur :: ss)) (hc : cur.1 = t) (hu : OnStep u (pre ++ cur :: ss)) (h : t < u) :
    OnStep u ss := by
  obtain ⟨s, hs, rfl⟩ := List.mem_map.1 hu
  rcases List.mem_append.1 hs with hs | hs
  · have := (List.pairwise_append.1 hp).2.2 s hs cur (by simp)
    omega
  · rcases List.mem_cons.1 hs with rfl | hs
    · omega
    · exact List.mem_map.2 ⟨s, hs, rfl⟩

theorem onStep_tail {u : Int} {ss : List (Int × List Nat)} {c : Int × List Nat}
    (hu : OnStep u (c :: ss)) (h : c.1 < u) : OnStep u ss := by
  rw [OnStep, List.map_cons, List.mem_cons] at hu
  rcases hu with hu | hu
  · omega
  · exact hu

theorem onStep_head_le {u : Int} {ss : List (Int × List Nat)} {c : Int × List Nat}
    (hp : Sorted (c :: ss)) (hu : OnStep u (c :: ss)) : c.1 ≤ u := by
  rw [OnStep, List.map_cons, List.mem_cons] at hu
  rcases hu with hu | hu
  · omega
  · obtain ⟨s, hs, rfl⟩ := List.mem_map.1 hu
    have := (List.pairwise_cons.1 hp).1 s hs
    omega

/-- What `emit` hands on from the rest of the run. -/
theorem mem_emit {m : Int} {cur : Int × List Nat} {f g : GFrame α}
    {x : List (List Nat × GFrame α) × Option PyErr} (hc : cur.1 ≤ m) (h : g ∈ x.1.map Prod.snd) :
    g ∈ (emit m cur f x).1.map Prod.snd := by
  unfold emit
  rw [if_neg (by omega)]
  split
  · exact List.mem_cons_of_mem _ h
  · exact h

theorem emit_same {m : Int} {cur : Int × List Nat} {f : GFrame α}
    {x : List (List Nat × GFrame α) × Option PyErr} (hc : cur.1 ≤ m) (h : cur.1 = f.timestep) :
    (emit m cur f x).1 = (cur.2, f) :: x.1 := by
  unfold emit
  rw [if_neg (by omega), if_pos h]

/-- A turn with a frame on the series. -/
theorem turn_on (m : Int) (fe : Option PyErr) (x : GFrame α) (fs : List (GFrame α))
    (ss : List (Int × List Nat)) (hp : Sorted ss) (hm : ∀ s ∈ ss, s.1 ≤ m)
    (hx : OnStep x.timestep ss) :
    ∃ pre cur ss', ss = pre ++ cur :: ss' ∧ cur.1 = x.timestep ∧
      (expReader m fe (x :: fs) ss).1 = (cur.2, x) :: (expReader m fe fs ss').1 := by
  cases ss with
  | nil => exact absurd hx (by simp [OnStep])
  | cons c ss =>
    have hle := onStep_head_le hp hx
    rw [expReader, if_neg (by omega)]
    by_cases hlt : c.1 < x.timestep
    · obtain ⟨cur, ss', h1, h2, pre, h3⟩ := catchSteps_found x.timestep ss c hp hx
      refine ⟨pre, cur, ss', h3.symm, h2, ?_⟩
      rw [if_pos hlt, h1]
      exact emit_same (hm cur (h3 ▸ by simp)) h2
    · rw [if_neg hlt]
      exact ⟨[], c, ss, rfl, by omega, emit_same (hm c (by simp)) (by omega)⟩

/-- What is left of the steps. -/
theorem rest_sorted {m : Int} {pre ss : List (Int × List Nat)} {cur : Int × List Nat}
    (hp : Sorted (pre ++ cur :: ss)) (hm : ∀ s ∈ pre ++ cur :: ss, s.1 ≤ m) :
    Sorted ss ∧ ∀ s ∈ ss, s.1 ≤ m :=
  ⟨(List.pairwise_cons.1 (List.pairwise_append.1 hp).2.1).2, fun s hs => hm s (by simp [hs])⟩

theorem split3 {β : Type} : ∀ (l : List β) (i : Nat) (c : β), l[i + 2]? = some c →
    ∃ pre a b post, l = pre ++ a :: b :: c :: post ∧ l[i]? = some a ∧ l[i + 1]? = some b ∧
      pre.length = i := by
  intro l
  induction l with
  | nil => intro i c h; simp at h
  | cons x l ih =>
    intro i c h
    cases i with
    | zero =>
      cases l with
      | nil => simp at h
      | cons y l =>
        cases l with
        | nil => simp at h
        | cons z l =>
          have : z = c := by simpa using h
          exact ⟨[], x, y, l, by rw [this]; rfl, rfl, rfl, rfl⟩
    | succ i =>
      obtain ⟨pre, a, b, post, h1, h2, h3, h4⟩ := ih i c (by simpa using h)
      exact ⟨x :: pre, a, b, post, by rw [h1]; rfl, by simpa using h2, by simpa using h3, by simp [h4]⟩

/-! ## Frames in a row -/

theorem first_on (m : Int) (fe : Option PyErr) (f : GFrame α) (fs : List (GFrame α))
    (ss : List (Int × List Nat)) (hp : Sorted ss) (hm : ∀ s ∈ ss, s.1 ≤ m)
    (hf : OnStep f.timestep ss) : f ∈ (expReader m fe (f :: fs) ss).1.map Prod.snd := by
  obtain ⟨pre, cur, ss', -, -, h⟩ := turn_on m fe f fs ss hp hm hf
  rw [h]
  simp

theorem second_on (m : Int) (fe : Option PyErr) (g f : GFrame α) (fs : List (GFrame α))
    (ss : List (Int × List Nat)) (hp : Sorted ss) (hm : ∀ s ∈ ss, s.1 ≤ m)
    (hgf : g.timestep < f.timestep) (hg : OnStep g.timestep ss) (hf : OnStep f.timestep ss) :
    f ∈ (expReader m fe (g :: f :: fs) ss).1.map Prod.snd := by
  obtain ⟨pre, cur, ss', rfl, h1, h⟩ := turn_on m fe g (f :: fs) ss hp hm hg
  obtain ⟨r1, r2⟩ := rest_sorted hp hm
  rw [h]
  exact List.mem_cons_of_mem _ (first_on m fe f fs ss' r1 r2 (onStep_after hp h1 hf hgf))

/-- With the two frames before it on the series too, a frame on the series is yielded. -/
theorem third_on (m : Int) (fe : Option PyErr) (n : Nat) : ∀ (fs : List (GFrame α)), fs.length ≤ n →
    Increasing fs →
    (∀ (ss : List (Int × List Nat)) (pre post : List (GFrame α)) (h g f : GFrame α), Sorted ss →
      (∀ s ∈ ss, s.1 ≤ m) → fs = pre ++ h :: g :: f :: post → OnStep h.timestep ss →
      OnStep g.timestep ss → OnStep f.timestep ss →
      f ∈ (expReader m fe fs ss).1.map Prod.snd) ∧
    (∀ (c : Int × List Nat) (ss : List (Int × List Nat)) (pre post : List (GFrame α)) (g f : GFrame α),
      Sorted (c :: ss) → (∀ s ∈ c :: ss, s.1 ≤ m) → fs = pre ++ g :: f :: post →
      OnStep g.timestep (c :: ss) → OnStep f.timestep (c :: ss) →
      (∀ pre' h, pre = pre' ++ [h] → OnStep h.timestep (c :: ss) ∨ h.timestep < c.1) →
      f ∈ (catchFrames m fe c fs ss).1.map Prod.snd) ∧
    (∀ (s : Int × List Nat) (ss : List (Int × List Nat)) (pre post : List (GFrame α))
      (h g f : GFrame α), Sorted (s :: ss) → (∀ x ∈ s :: ss, x.1 ≤ m) →
      fs = pre ++ h :: g :: f :: post → OnStep h.timestep (s :: ss) →
      OnStep g.timestep (s :: ss) → OnStep f.timestep (s :: ss) →
      f ∈ (expReader m fe fs ss).1.map Prod.snd) := by
  induction n with
  | zero =>
    intro fs hn _
    obtain rfl : fs = [] := List.length_eq_zero_iff.1 (by omega)
    refine ⟨?_, ?_, ?_⟩ <;> intros <;> simp at *
  | succ n ih =>
    intro fs hn hinc
    cases fs with
    | nil => refine ⟨?_, ?_, ?_⟩ <;> intros <;> simp at *
    | cons x fs =>
      have hn' : fs.length ≤ n := by simpa using hn
      have hinc' : Increasing fs := (List.pairwise_cons.1 hinc).2
      have hx : ∀ y ∈ fs, x.timestep < y.timestep := (List.pairwise_cons.1 hinc).1
      obtain ⟨ihE, ihK, ihA⟩ := ih fs hn' hinc'
      -- the reader with no step too many used up
      have hE : ∀ (ss : List (Int × List Nat)) (pre post : List (GFrame α)) (h g f : GFrame α),
          Sorted ss → (∀ s ∈ ss, s.1 ≤ m) → x :: fs = pre ++ h :: g :: f :: post →
          OnStep h.timestep ss → OnStep g.timestep ss → OnStep f.timestep ss →
          f ∈ (expReader m fe (x :: fs) ss).1.map Prod.snd := by
        intro ss pre post h g f hp hm he hh hg hf
        have hgf : h.timestep < g.timestep ∧ g.timestep < f.timestep := by
          rw [he] at hinc
          have := (List.pairwise_append.1 hinc).2.1
          rw [List.pairwise_cons, List.pairwise_cons] at this
          exact ⟨this.1 g (by simp), this.2.1 f (by simp)⟩
        by_cases hon : OnStep x.timestep ss
        · obtain ⟨sp, cur, ss', rfl, h1, hr⟩ := turn_on m fe x fs ss hp hm hon
          obtain ⟨r1, r2⟩ := rest_sorted hp hm
          rw [hr]
          refine List.mem_cons_of_mem _ ?_
          cases pre with
          | nil =>
            obtain ⟨rfl, rfl⟩ := List.cons.inj he
            exact second_on m fe g f post ss' r1 r2 hgf.2
              (onStep_after hp h1 hg hgf.1) (onStep_after hp h1 hf (by omega))
          | cons y pre =>
            obtain ⟨rfl, rfl⟩ := List.cons.inj he
            have a1 := hx h (by simp)
            exact ihE ss' pre post h g f r1 r2 rfl (onStep_after hp h1 hh a1)
              (onStep_after hp h1 hg (by omega)) (onStep_after hp h1 hf (by omega))
        · cases pre with
          | nil =>
            obtain ⟨rfl, -⟩ := List.cons.inj he
            exact absurd hh hon
          | cons y pre =>
            obtain ⟨rfl, rfl⟩ := List.cons.inj he
            have a1 := hx h (by simp)
            cases ss with
            | nil => exact absurd hf (by simp [OnStep])
            | cons c ss =>
              rw [expReader]
              by_cases hgt : c.1 > x.timestep
              · rw [if_pos hgt]
                refine ihK c ss (pre ++ [h]) post g f hp hm (by simp) hg hf ?_
                intro pre' h' heq
                obtain ⟨-, h2⟩ := List.append_inj' heq rfl
                obtain ⟨rfl, -⟩ := List.cons.inj h2
                exact Or.inl hh
              · have hne : c.1 ≠ x.timestep := by
                  intro h0
                  exact hon (by rw [OnStep, List.map_cons, h0]; simp)
                rw [if_neg hgt, if_pos (by omega)]
                cases hcs : catchSteps x.timestep c ss with
                | none =>
                  exfalso
                  obtain ⟨s, hs, hse⟩ := List.mem_map.1 hf
                  have := catchSteps_none _ _ _ hcs s hs
                  omega
                | some q =>
                  obtain ⟨q1, sp, q2, q3⟩ := catchSteps_first _ _ _ _ hcs
                  have hsp : Sorted (q.1 :: q.2) := by
                    rw [q2] at hp
                    exact (List.pairwise_append.1 hp).2.1
                  have hqm : ∀ s ∈ q.1 :: q.2, s.1 ≤ m := fun s hs => hm s (by
                    rw [q2]
                    exact List.mem_append_right _ hs)
                  have hin : ∀ u, x.timestep < u → OnStep u (c :: ss) → OnStep u (q.1 :: q.2) := by
                    intro u hu huo
                    obtain ⟨s, hs, rfl⟩ := List.mem_map.1 huo
                    rw [q2] at hs
                    rcases List.mem_append.1 hs with hs | hs
                    · have := q3 s hs
                      omega
                    · exact List.mem_map.2 ⟨s, hs, rfl⟩
                  dsimp only
                  exact mem_emit (hqm q.1 (by simp)) (ihA q.1 q.2 pre post h g f hsp hqm rfl
                    (hin _ a1 hh) (hin _ (by omega) hg) (hin _ (by omega) hf))
      refine ⟨hE, ?_, ?_⟩
      · intro c ss pre post g f hp hm he hg hf hlast
        have hgf : g.timestep < f.timestep := by
          rw [he] at hinc
          have := (List.pairwise_append.1 hinc).2.1
          exact (List.pairwise_cons.1 this).1 f (by simp)
        have hcg := onStep_head_le hp hg
        obtain ⟨r1, r2⟩ := rest_sorted (pre := []) hp hm
        rw [catchFrames]
        by_cases hlt : x.timestep < c.1
        · rw [if_pos hlt]
          cases pre with
          | nil =>
            obtain ⟨rfl, -⟩ := List.cons.inj he
            omega
          | cons y pre =>
            obtain ⟨rfl, rfl⟩ := List.cons.inj he
            exact ihK c ss pre post g f hp hm rfl hg hf
              (fun pre' h hpre => hlast (x :: pre') h (by rw [hpre]; rfl))
        · rw [if_neg hlt]
          refine mem_emit (hm c (by simp)) ?_
          cases pre with
          | nil =>
            obtain ⟨rfl, rfl⟩ := List.cons.inj he
            exact first_on m fe f post ss r1 r2 (onStep_tail hf (by omega))
          | cons y pre =>
            obtain ⟨rfl, rfl⟩ := List.cons.inj he
            rcases List.eq_nil_or_concat pre with rfl | ⟨pre', h, rfl⟩
            · have := hx g (by simp)
              exact second_on m fe g f post ss r1 r2 hgf (onStep_tail hg (by omega))
                (onStep_tail hf (by omega))
            · rw [List.concat_eq_append] at hx hlast ihE ⊢
              have a1 := hx h (by simp)
              have a2 := hx g (by simp)
              rcases hlast (x :: pre') h rfl with hh | hh
              · refine ihE ss pre' post h g f r1 r2 (by simp) (onStep_tail hh (by omega))
                  (onStep_tail hg (by omega)) (onStep_tail hf (by omega))
              · omega
      · intro s ss pre post h g f hp hm he hh hg hf
        obtain ⟨r1, r2⟩ := rest_sorted (pre := []) hp hm
        have hgf : h.timestep < g.timestep ∧ g.timestep < f.timestep := by
          rw [he] at hinc
          have := (List.pairwise_append.1 hinc).2.1
          rw [List.pairwise_cons, List.pairwise_cons] at this
          exact ⟨this.1 g (by simp), this.2.1 f (by simp)⟩
        have hsh := onStep_head_le hp hh
        have hg' := onStep_tail hg (by omega)
        have hf' := onStep_tail hf (by omega)
        by_cases hxs : s.1 < x.timestep
        · refine hE ss pre post h g f r1 r2 he (onStep_tail hh ?_) hg' hf'
          cases pre with
          | nil =>
            obtain ⟨rfl, -⟩ := List.cons.inj he
            exact hxs
          | cons y pre =>
            obtain ⟨rfl, rfl⟩ := List.cons.inj he
            have := hx h (by simp)
            omega
        · cases ss with
          | nil => exact absurd hf' (by simp [OnStep])
          | cons c ss =>
            have hsc : s.1 < c.1 := (List.pairwise_cons.1 hp).1 c (by simp)
            rw [expReader, if_pos (by omega)]
            cases pre with
            | nil =>
              obtain ⟨rfl, rfl⟩ := List.cons.inj he
              exact ihK c ss [] post g f r1 r2 rfl hg' hf' (by simp)
            | cons y pre =>
              obtain ⟨rfl, rfl⟩ := List.cons.inj he
              refine ihK c ss (pre ++ [h]) post g f r1 r2 (by simp) hg' hf' ?_
              intro pre' h' heq
              obtain ⟨-, h2⟩ := List.append_inj' heq rfl
              obtain ⟨rfl, -⟩ := List.cons.inj h2
              rw [OnStep, List.map_cons, List.mem_cons] at hh
              rcases hh with hh | hh
              · exact Or.inr (by omega)
              · exact Or.inl hh

/-! ## Steps in a row -/

theorem catch_step (m : Int) (fe : Option PyErr) (c : Int × List Nat) (ss : List (Int × List Nat))
    (hc : c.1 ≤ m) : ∀ (fs : List (GFrame α)) (f : GFrame α), Increasing fs → f ∈ fs →
    f.timestep = c.1 → ∃ pre post, fs = pre ++ f :: post ∧
      (catchFrames m fe c fs ss).1 = (c.2, f) :: (expReader m fe post ss).1 := by
  intro fs
  induction fs with
  | nil => intro f _ h; exact absurd h (by simp)
  | cons x fs ih =>
    intro f hinc hf he
    have hx := (List.pairwise_cons.1 hinc).1
    rw [catchFrames]
    rcases List.mem_cons.1 hf with rfl | hf
    · rw [if_neg (by omega)]
      exact ⟨[], fs, rfl, emit_same hc he.symm⟩
    · have := hx f hf
      rw [if_pos (by omega)]
      obtain ⟨pre, post, rfl, h2⟩ := ih f (List.pairwise_cons.1 hinc).2 hf he
      exact ⟨x :: pre, post, rfl, h2⟩

/-- The step the reader is at has its frame: it is yielded, and the reader goes on after both. -/
theorem next_step (m : Int) (fe : Option PyErr) (c : Int × List Nat) (ss : List (Int × List Nat))
    (hc : c.1 ≤ m) (fs : List (GFrame α)) (f : GFrame α) (hinc : Increasing fs) (hf : f ∈ fs)
    (he : f.timestep = c.1) : ∃ pre post, fs = pre ++ f :: post ∧
      (expReader m fe fs (c :: ss)).1 = (c.2, f) :: (expReader m fe post ss).1 := by
  cases fs with
  | nil => exact absurd hf (by simp)
  | cons x fs =>
    have hx := (List.pairwise_cons.1 hinc).1
    rw [expReader]
    rcases List.mem_cons.1 hf with rfl | hf
    · rw [if_neg (by omega), if_neg (by omega)]
      exact ⟨[], fs, rfl, emit_same hc he.symm⟩
    · have := hx f hf
      rw [if_pos (by omega)]
      obtain ⟨pre, post, rfl, h2⟩ := catch_step m fe c ss hc fs f (List.pairwise_cons.1 hinc).2 hf he
      exact ⟨x :: pre, post, rfl, h2⟩

theorem second_step (m : Int) (fe : Option PyErr) (p1 p0 : Int × List Nat)
    (ss : List (Int × List Nat)) (h1 : p1.1 ≤ m) (h0 : p0.1 ≤ m) (hp : p1.1 < p0.1)
    (fs : List (GFrame α)) (f1 f0 : GFrame α) (hinc : Increasing fs) (hf1 : f1 ∈ fs) (hf0 : f0 ∈ fs)
    (e1 : f1.timestep = p1.1) (e0 : f0.timestep = p0.1) :
    (p0.2, f0) ∈ (expReader m fe fs (p1 :: p0 :: ss)).1 := by
  obtain ⟨pre, post, rfl, h⟩ := next_step m fe p1 (p0 :: ss) h1 fs f1 hinc hf1 e1
  rw [h]
  refine List.mem_cons_of_mem _ ?_
  have hi := List.pairwise_append.1 hinc
  have hin : f0 ∈ post := by
    rcases List.mem_append.1 hf0 with hm | hm
    · have := hi.2.2 f0 hm f1 (by simp)
      omega
    · rcases List.mem_cons.1 hm with rfl | hm
      · omega
      · exact hm
  obtain ⟨pre', post', -, h'⟩ := next_step m fe p0 ss h0 post f0 (List.pairwise_cons.1 hi.2.1).2 hin e0
  rw [h']
  simp

/-- The reader is behind the frames, by steps that are over. -/
theorem late_step (m : Int) (fe : Option PyErr) (pre : List (Int × List Nat)) (p1 p0 : Int × List Nat)
    (ss : List (Int × List Nat)) (h1 : p1.1 ≤ m) (h0 : p0.1 ≤ m)
    (hs : Sorted (pre ++ p1 :: p0 :: ss))
    (fs : List (GFrame α)) (f1 f0 : GFrame α) (hinc : Increasing fs) (hf1 : f1 ∈ fs) (hf0 : f0 ∈ fs)
    (e1 : f1.timestep = p1.1) (e0 : f0.timestep = p0.1)
    (hlate : ∀ s ∈ pre, ∀ f ∈ fs, s.1 < f.timestep) :
    (p0.2, f0) ∈ (expReader m fe fs (pre ++ p1 :: p0 :: ss)).1 := by
  have hlt : p1.1 < p0.1 := (List.pairwise_cons.1 (List.pairwise_append.1 hs).2.1).1 p0 (by simp)
  cases pre with
  | nil => exact second_step m fe p1 p0 ss h1 h0 hlt fs f1 f0 hinc hf1 hf0 e1 e0
  | cons c pre =>
    cases fs with
    | nil => exact absurd hf1 (by simp)
    | cons x fs =>
      have hx := (List.pairwise_cons.1 hinc).1
      have hinc' := (List.pairwise_cons.1 hinc).2
      have hcx := hlate c (by simp) x (by simp)
      have hx1 : x.timestep ≤ p1.1 := by
        rcases List.mem_cons.1 hf1 with rfl | h
        · omega
        · have := hx f1 h
          omega
      have hcs : catchSteps x.timestep c (pre ++ p1 :: p0 :: ss) = some (p1, p0 :: ss) := by
        cases hq : catchSteps x.timestep c (pre ++ p1 :: p0 :: ss) with
        | none =>
          have := catchSteps_none _ _ _ hq p1 (by simp)
          omega
        | some q =>
          obtain ⟨q1, sp, q2, q3⟩ := catchSteps_first _ _ _ _ hq
          have key : ∀ (a b : List (Int × List Nat)) (u v : Int × List Nat)
              (r t : List (Int × List Nat)), (∀ s ∈ a, s.1 < x.timestep) → x.timestep ≤ u.1 →
              (∀ s ∈ b, s.1 < x.timestep) → x.timestep ≤ v.1 → a ++ u :: r = b ++ v :: t →
              u = v ∧ r = t := by
            intro a
            induction a with
            | nil =>
              intro b u v r t _ hu hb _ he
              cases b with
              | nil => exact List.cons.inj he
              | cons y b =>
                obtain ⟨rfl, -⟩ := List.cons.inj he
                have := hb u (by simp)
                omega
            | cons z a ih =>
              intro b u v r t ha hu hb hv he
              cases b with
              | nil =>
                obtain ⟨rfl, -⟩ := List.cons.inj he
                have := ha z (by simp)
                omega
              | cons y b =>
                exact ih b u v r t (fun s hs => ha s (by simp [hs])) hu
                  (fun s hs => hb s (by simp [hs])) hv (List.cons.inj he).2
          obtain ⟨k1, k2⟩ := key (c :: pre) sp p1 q.1 (p0 :: ss) q.2
            (fun s hs => hlate s hs x (by simp)) hx1 q3 q1 q2
          rw [k1, k2]
      rw [List.cons_append, expReader, if_neg (by omega), if_pos (by omega), hcs]
      dsimp only
      have hin : f0 ∈ fs := by
        rcases List.mem_cons.1 hf0 with rfl | h
        · omega
        · exact h
      obtain ⟨a, b, -, hr⟩ := next_step m fe p0 ss h0 fs f0 hinc' hin e0
      have hmem : (p0.2, f0) ∈ (expReader m fe fs (p0 :: ss)).1 := by rw [hr]; simp
      unfold emit
      rw [if_neg (by omega)]
      split
      · exact List.mem_cons_of_mem _ hmem
      · exact hmem

theorem mem_emit' {m : Int} {cur : Int × List Nat} {f : GFrame α} {p : List Nat × GFrame α}
    {x : List (List Nat × GFrame α) × Option PyErr} (hc : cur.1 ≤ m) (h : p ∈ x.1) :
    p ∈ (emit m cur f x).1 := by
  unfold emit
  rw [if_neg (by omega)]
  split
  · exact List.mem_cons_of_mem _ h
  · exact h

/-- With the frames of the two steps before it in the file too, a step with a frame is yielded. -/
theorem third_step (m : Int) (fe : Option PyErr) (p2 p1 p0 : Int × List Nat)
    (post : List (Int × List Nat)) (f2 f1 f0 : GFrame α) (e2 : f2.timestep = p2.1)
    (e1 : f1.timestep = p1.1) (e0 : f0.timestep = p0.1) : ∀ (fs : List (GFrame α)), Increasing fs →
    f2 ∈ fs → f1 ∈ fs → f0 ∈ fs →
    (∀ pre : List (Int × List Nat), Sorted (pre ++ p2 :: p1 :: p0 :: post) →
      (∀ s ∈ pre ++ p2 :: p1 :: p0 :: post, s.1 ≤ m) →
      (p0.2, f0) ∈ (expReader m fe fs (pre ++ p2 :: p1 :: p0 :: post)).1) ∧
    (∀ (c : Int × List Nat) (ss pre : List (Int × List Nat)),
      c :: ss = pre ++ p2 :: p1 :: p0 :: post → Sorted (c :: ss) → (∀ s ∈ c :: ss, s.1 ≤ m) →
      (p0.2, f0) ∈ (catchFrames m fe c fs ss).1) := by
  intro fs
  induction fs with
  | nil => intro _ h; exact absurd h (by simp)
  | cons x fs ih =>
    intro hinc h2 h1 h0
    have hx := (List.pairwise_cons.1 hinc).1
    have hinc' := (List.pairwise_cons.1 hinc).2
    -- the frames that are left
    have hrest : ∀ f ∈ x :: fs, x.timestep < f.timestep → f ∈ fs := by
      intro f hf hlt
      rcases List.mem_cons.1 hf with rfl | hf
      · omega
      · exact hf
    have hx2 : x.timestep ≤ p2.1 := by
      rcases List.mem_cons.1 h2 with rfl | h
      · omega
      · have := hx f2 h
        omega
    have hord : ∀ pre : List (Int × List Nat), Sorted (pre ++ p2 :: p1 :: p0 :: post) →
        p2.1 < p1.1 ∧ p1.1 < p0.1 := by
      intro pre hp
      have := (List.pairwise_append.1 hp).2.1
      rw [List.pairwise_cons, List.pairwise_cons] at this
      exact ⟨this.1 p1 (by simp), this.2.1 p0 (by simp)⟩
    constructor
    · intro pre hp hm
      obtain ⟨o1, o2⟩ := hord pre hp
      have m1 := hm p1 (by simp)
      have m0 := hm p0 (by simp)
      have hf1 : f1 ∈ fs := hrest f1 h1 (by omega)
      have hf0 : f0 ∈ fs := hrest f0 h0 (by omega)
      -- the reader has come to a step that is not before the frame
      have hgo : ∀ (sp : List (Int × List Nat)) (q : Int × List Nat) (r : List (Int × List Nat)),
          pre ++ p2 :: p1 :: p0 :: post = sp ++ q :: r → x.timestep ≤ q.1 →
          (∀ s ∈ sp, s.1 < x.timestep) → (p0.2, f0) ∈ (expReader m fe fs r).1 := by
        intro sp q r heq hq hsp
        rcases List.append_eq_append_iff.1 heq with ⟨a, ha, hb⟩ | ⟨a, ha, hb⟩
        · -- the steps before the three are over: the reader is at the first of them
          cases a with
          | nil =>
            obtain ⟨rfl, rfl⟩ := List.cons.inj hb
            exact second_step m fe p1 p0 post m1 m0 o2 fs f1 f0 hinc' hf1 hf0 e1 e0
          | cons y a =>
            obtain ⟨rfl, -⟩ := List.cons.inj hb
            have := hsp p2 (by rw [ha]; simp)
            omega
        · cases a with
          | nil =>
            obtain ⟨rfl, rfl⟩ := List.cons.inj hb
            exact second_step m fe p1 p0 post m1 m0 o2 fs f1 f0 hinc' hf1 hf0 e1 e0
          | cons y a =>
            obtain ⟨rfl, rfl⟩ := List.cons.inj hb
            have hq2 : q.1 < p2.1 := by
              rw [ha] at hp
              exact (List.pairwise_append.1 hp).2.2 q (by simp) p2 (by simp)
            have hf2 : f2 ∈ fs := hrest f2 h2 (by omega)
            rw [ha, List.append_assoc] at hp hm
            refine ((ih hinc' hf2 hf1 hf0).1 a ?_ ?_)
            · exact (List.pairwise_cons.1 (List.pairwise_append.1 hp).2.1).2
            · intro s hs
              refine hm s ?_
              simp only [List.mem_append, List.mem_cons] at hs ⊢
              tauto
      cases hss : pre ++ p2 :: p1 :: p0 :: post with
      | nil => simp at hss
      | cons c ss =>
        have hcm : c.1 ≤ m := hm c (by rw [hss]; simp)
        rw [expReader]
        by_cases hgt : c.1 > x.timestep
        · rw [if_pos hgt]
          have hc2 : c.1 ≤ p2.1 := by
            refine onStep_head_le (u := p2.1) (hss ▸ hp) ?_
            rw [← hss]
            exact List.mem_map.2 ⟨p2, by simp, rfl⟩
          have hf2 : f2 ∈ fs := hrest f2 h2 (by omega)
          exact (ih hinc' hf2 hf1 hf0).2 c ss pre hss.symm (hss ▸ hp) (hss ▸ hm)
        · rw [if_neg hgt]
          by_cases hlt : c.1 < x.timestep
          · rw [if_pos hlt]
            cases hq : catchSteps x.timestep c ss with
            | none =>
              have := catchSteps_none _ _ _ hq p2 (by rw [← hss]; simp)
              omega
            | some q =>
              obtain ⟨q1, sp, q2, q3⟩ := catchSteps_first _ _ _ _ hq
              dsimp only
              refine mem_emit' (hm q.1 (by rw [hss, q2]; simp)) ?_
              exact hgo sp q.1 q.2 (by rw [hss, q2]) q1 q3
          · rw [if_neg hlt]
            exact mem_emit' hcm (hgo [] c ss (by rw [hss]; rfl) (by omega) (by simp))
    · intro c ss pre heq hp hm
      obtain ⟨o1, o2⟩ := hord pre (heq ▸ hp)
      have m1 := hm p1 (by rw [heq]; simp)
      have m0 := hm p0 (by rw [heq]; simp)
      have hf1 : f1 ∈ fs := hrest f1 h1 (by omega)
      have hf0 : f0 ∈ fs := hrest f0 h0 (by omega)
      have hcm : c.1 ≤ m := hm c (by simp)
      have hc2 : c.1 ≤ p2.1 := by
        refine onStep_head_le (u := p2.1) hp ?_
        rw [heq]
        exact List.mem_map.2 ⟨p2, by simp, rfl⟩
      rw [catchFrames]
      by_cases hlt : x.timestep < c.1
      · rw [if_pos hlt]
        have hf2 : f2 ∈ fs := hrest f2 h2 (by omega)
        exact (ih hinc' hf2 hf1 hf0).2 c ss pre heq hp hm
      · rw [if_neg hlt]
        refine mem_emit' hcm ?_
        cases pre with
        | nil =>
          obtain ⟨rfl, rfl⟩ := List.cons.inj heq
          exact second_step m fe p1 p0 post m1 m0 o2 fs f1 f0 hinc' hf1 hf0 e1 e0
        | cons y pre =>
          rw [List.cons_append] at heq
          obtain ⟨rfl, rfl⟩ := List.cons.inj heq
          have hp' := (List.pairwise_cons.1 hp).2
          have hm' : ∀ s ∈ pre ++ p2 :: p1 :: p0 :: post, s.1 ≤ m := fun s hs => hm s (by simp [hs])
          by_cases hxe : x.timestep < p2.1
          · exact (ih hinc' (hrest f2 h2 (by omega)) hf1 hf0).1 pre hp' hm'
          · have he : pre ++ p2 :: p1 :: p0 :: post = (pre ++ [p2]) ++ p1 :: p0 :: post := by simp
            rw [he] at hp' hm' ⊢
            refine late_step m fe (pre ++ [p2]) p1 p0 post m1 m0 hp' fs f1 f0 hinc' hf1 hf0 e1 e0 ?_
            intro s hs f hf
            have a1 := hx f hf
            have a2 : s.1 ≤ p2.1 := by
              rcases List.mem_append.1 hs with hs | hs
              · have := (List.pairwise_append.1 (he ▸ hp')).2.2 s hs p2 (by simp)
                omega
              · obtain rfl := List.mem_singleton.1 hs
                omega
            omega

end Verif.Gsd
