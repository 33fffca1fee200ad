import Verif.Gsd.Lemmas
import Mathlib.Data.Finset.Card
import Mathlib.Data.Finset.Basic
/-!
# Helper lemmas for C162: how many frames the exponential reader loses

`a` and `b` are increasing lists of steps: those of the frames and those of the series, or the
other way round.
-/

namespace Verif.Gsd

variable {α : Type}

/-- How many steps are in both lists. -/
def common (a b : List Int) : Nat := (a.toFinset ∩ b.toFinset).card

/-- How many members of `b` lie between members of `a` without being one. -/
def between (a b : List Int) : Nat :=
  (b.toFinset.filter (fun s => s ∉ a ∧ (∃ t ∈ a, t < s) ∧ ∃ t ∈ a, s < t)).card

/-- `b` begins before `a`. -/
def lag : List Int → List Int → Nat
  | t :: _, s :: _ => if s < t then 1 else 0
  | _, _ => 0

theorem lag_le (a b : List Int) : lag a b ≤ 1 := by
  unfold lag
  split
  · split <;> omega
  · omega

theorem common_le {a b a' b' : List Int} (h : ∀ x ∈ a, x ∈ b → x ∈ a' ∧ x ∈ b') :
    common a b ≤ common a' b' := by
  apply Finset.card_le_card
  intro x hx
  simp only [Finset.mem_inter, List.mem_toFinset] at hx ⊢
  exact h x hx.1 hx.2

theorem common_le_succ {a b a' b' : List Int} (x0 : Int)
    (h : ∀ x ∈ a, x ∈ b → x = x0 ∨ (x ∈ a' ∧ x ∈ b')) :
    common a b ≤ common a' b' + 1 := by
  refine (Finset.card_le_card ?_).trans (Finset.card_insert_le x0 (a'.toFinset ∩ b'.toFinset))
  intro x hx
  simp only [Finset.mem_inter, List.mem_toFinset, Finset.mem_insert] at hx ⊢
  exact h x hx.1 hx.2

theorem common_zero {a b : List Int} (h : ∀ x ∈ a, x ∉ b) : common a b = 0 := by
  unfold common
  rw [Finset.card_eq_zero, Finset.eq_empty_iff_forall_notMem]
  intro x hx
  simp only [Finset.mem_inter, List.mem_toFinset] at hx
  exact h x hx.1 hx.2

/-- What is left of both lists has no more members in between. -/
theorem between_mono {pre a' prb b' : List Int} (ha : (pre ++ a').Pairwise (· < ·)) :
    between a' b' ≤ between (pre ++ a') (prb ++ b') := by
  apply Finset.card_le_card
  intro x hx
  simp only [Finset.mem_filter, List.mem_toFinset, List.mem_append] at hx ⊢
  obtain ⟨h1, h2, ⟨t, ht, htx⟩, t', ht', hxt'⟩ := hx
  refine ⟨.inr h1, ?_, ⟨t, .inr ht, htx⟩, t', .inr ht', hxt'⟩
  rintro (h | h)
  · have := (List.pairwise_append.1 ha).2.2 x h t ht
    omega
  · exact h2 h

/-- It has fewer, when one of them has been passed. -/
theorem between_lt {pre a' prb b' : List Int} (ha : (pre ++ a').Pairwise (· < ·)) {x : Int}
    (hx : x ∈ prb ++ b') (hxa : x ∉ pre ++ a') (hlo : ∃ t ∈ pre ++ a', t < x)
    (hhi : ∃ t ∈ pre ++ a', x < t) (hnot : x ∉ b' ∨ ∀ t ∈ a', x ≤ t) :
    between a' b' + 1 ≤ between (pre ++ a') (prb ++ b') := by
  unfold between
  rw [Nat.succ_le_iff]
  apply Finset.card_lt_card
  rw [Finset.ssubset_iff_of_subset]
  · refine ⟨x, ?_, ?_⟩
    · simp only [Finset.mem_filter, List.mem_toFinset]
      exact ⟨hx, hxa, hlo, hhi⟩
    · simp only [Finset.mem_filter, List.mem_toFinset]
      rintro ⟨h1, _, ⟨t, ht, htx⟩, _⟩
      rcases hnot with h | h
      · exact h h1
      · have := h t ht
        omega
  · intro x hx
    simp only [Finset.mem_filter, List.mem_toFinset, List.mem_append] at hx ⊢
    obtain ⟨h1, h2, ⟨t, ht, htx⟩, t', ht', hxt'⟩ := hx
    refine ⟨.inr h1, ?_, ⟨t, .inr ht, htx⟩, t', .inr ht', hxt'⟩
    rintro (h | h)
    · have := (List.pairwise_append.1 ha).2.2 x h t ht
      omega
    · exact h2 h

/-- Beginning again after some of `a`, all before what is left of `b`. -/
theorem between_settle {pre a' prb b' : List Int} (ha : (pre ++ a').Pairwise (· < ·))
    (hne : pre ≠ []) (hlt : ∀ t ∈ pre, ∀ s ∈ b', t < s) :
    2 * between a' b' + lag a' b' ≤ 2 * between (pre ++ a') (prb ++ b') := by
  have hm := between_mono (prb := prb) (b' := b') ha
  cases a' with
  | nil => simp only [lag]; omega
  | cons t a' =>
    cases b' with
    | nil => simp only [lag]; omega
    | cons s b' =>
      rw [show lag (t :: a') (s :: b') = if s < t then 1 else 0 from rfl]
      split
      · rename_i hst
        obtain ⟨t0, ht0⟩ := List.exists_mem_of_ne_nil pre hne
        have h0 := hlt t0 ht0 s List.mem_cons_self
        have hrest : ∀ t' ∈ t :: a', s < t' := by
          intro t' ht'
          rcases List.mem_cons.1 ht' with rfl | h
          · exact hst
          · have := (List.pairwise_cons.1 (List.pairwise_append.1 ha).2.1).1 t' h
            omega
        have := between_lt (prb := prb) (b' := s :: b') ha (x := s) (by simp) ?_
          ⟨t0, List.mem_append_left _ ht0, h0⟩ ⟨t, by simp, hst⟩
          (.inr (fun t' ht' => (hrest t' ht').le))
        · omega
        · rw [List.mem_append]
          rintro (h | h)
          · have := hlt s h s List.mem_cons_self
            omega
          · have := hrest s h
            omega
      · omega

/-- Beginning with both lists. -/
theorem between_begin {a b : List Int} (ha : a.Pairwise (· < ·)) :
    2 * between a b + lag a b ≤
      2 * (b.toFinset.filter (fun s => s ∉ a ∧ ∃ t ∈ a, s < t)).card := by
  have hsub : b.toFinset.filter (fun s => s ∉ a ∧ (∃ t ∈ a, t < s) ∧ ∃ t ∈ a, s < t) ⊆
      b.toFinset.filter (fun s => s ∉ a ∧ ∃ t ∈ a, s < t) := by
    intro x hx
    simp only [Finset.mem_filter] at hx ⊢
    exact ⟨hx.1, hx.2.1, hx.2.2.2⟩
  have hle := Finset.card_le_card hsub
  have hb : between a b ≤ (b.toFinset.filter (fun s => s ∉ a ∧ ∃ t ∈ a, s < t)).card := hle
  cases a with
  | nil => simp only [lag]; omega
  | cons t a =>
    cases b with
    | nil => simp only [lag]; omega
    | cons s b =>
      rw [show lag (t :: a) (s :: b) = if s < t then 1 else 0 from rfl]
      split
      · rename_i hst
        have hrest : ∀ t' ∈ t :: a, s < t' := by
          intro t' ht'
          rcases List.mem_cons.1 ht' with rfl | h
          · exact hst
          · have := (List.pairwise_cons.1 ha).1 t' h
            omega
        have hlt : between (t :: a) (s :: b) <
            ((s :: b).toFinset.filter (fun s => s ∉ t :: a ∧ ∃ t' ∈ t :: a, s < t')).card := by
          apply Finset.card_lt_card
          rw [Finset.ssubset_iff_of_subset hsub]
          refine ⟨s, ?_, ?_⟩
          · simp only [Finset.mem_filter, List.mem_toFinset]
            refine ⟨List.mem_cons_self, ?_, t, List.mem_cons_self, hst⟩
            intro h
            have := hrest s h
            omega
          · simp only [Finset.mem_filter, not_and]
            rintro _ _ ⟨t', ht', h⟩
            have := hrest t' ht'
            omega
        omega
      · omega

/-- Catching up with the frames: those before the step are passed over. -/
theorem catchFrames_split (m : Int) (fe : Option PyErr) (cur : Int × List Nat)
    (ss : List (Int × List Nat)) : ∀ fs : List (GFrame α),
    (catchFrames m fe cur fs ss = ([], fe) ∧ ∀ f ∈ fs, f.timestep < cur.1) ∨
    ∃ pre f fs', fs = pre ++ f :: fs' ∧ (∀ g ∈ pre, g.timestep < cur.1) ∧ cur.1 ≤ f.timestep ∧
      catchFrames m fe cur fs ss = emit m cur f (expReader m fe fs' ss) := by
  intro fs
  induction fs with
  | nil => exact .inl ⟨by simp [catchFrames], by simp⟩
  | cons f fs ih =>
    rw [catchFrames]
    by_cases h : f.timestep < cur.1
    · rw [if_pos h]
      rcases ih with ⟨h1, h2⟩ | ⟨pre, g, fs', h1, h2, h3, h4⟩
      · refine .inl ⟨h1, ?_⟩
        intro g hg
        rcases List.mem_cons.1 hg with rfl | hg
        · exact h
        · exact h2 g hg
      · refine .inr ⟨f :: pre, g, fs', by rw [h1]; rfl, ?_, h3, h4⟩
        intro g' hg'
        rcases List.mem_cons.1 hg' with rfl | hg'
        · exact h
        · exact h2 g' hg'
    · rw [if_neg h]
      exact .inr ⟨[], f, fs, rfl, by simp, by omega, rfl⟩

/-- Catching up with the steps: those before the frame are passed over. -/
theorem catchSteps_split (t : Int) : ∀ (ss : List (Int × List Nat)) (cur : Int × List Nat),
    (catchSteps t cur ss = none ∧ ∀ s ∈ cur :: ss, s.1 < t) ∨
    ∃ prb c ss', cur :: ss = prb ++ c :: ss' ∧ (∀ s ∈ prb, s.1 < t) ∧ t ≤ c.1 ∧
      catchSteps t cur ss = some (c, ss') := by
  intro ss
  induction ss with
  | nil =>
    intro cur
    unfold catchSteps
    by_cases h : cur.1 < t
    · rw [if_pos h]
      exact .inl ⟨rfl, by simpa using h⟩
    · rw [if_neg h]
      exact .inr ⟨[], cur, [], rfl, by simp, by omega, rfl⟩
  | cons s ss ih =>
    intro cur
    unfold catchSteps
    by_cases h : cur.1 < t
    · rw [if_pos h]
      rcases ih s with ⟨h1, h2⟩ | ⟨prb, c, ss', h1, h2, h3, h4⟩
      · refine .inl ⟨h1, ?_⟩
        intro x hx
        rcases List.mem_cons.1 hx with rfl | hx
        · exact h
        · exact h2 x hx
      · refine .inr ⟨cur :: prb, c, ss', by rw [h1]; rfl, ?_, h3, h4⟩
        intro x hx
        rcases List.mem_cons.1 hx with rfl | hx
        · exact h
        · exact h2 x hx
    · rw [if_neg h]
      exact .inr ⟨[], cur, s :: ss, rfl, by simp, by omega, rfl⟩

theorem common_comm (a b : List Int) : common a b = common b a := by
  unfold common
  rw [Finset.inter_comm]

/-- A turn that ends without agreement: `c` is passed over together with `f` after it. -/
theorem turn_lost {pre fs' ss' : List Int} {c f : Int} {n : Nat}
    (ha : (pre ++ f :: fs').Pairwise (· < ·)) (hb : (c :: ss').Pairwise (· < ·)) (hne : pre ≠ [])
    (hpre : ∀ t ∈ pre, t < c) (hcf : c < f)
    (h1 : common fs' ss' ≤ n + 2 * between fs' ss' + lag fs' ss')
    (h2 : common fs' ss' ≤ n + 2 * between ss' fs' + lag ss' fs') :
    common (pre ++ f :: fs') (c :: ss') ≤
        n + 2 * between (pre ++ f :: fs') (c :: ss') + lag (pre ++ f :: fs') (c :: ss') ∧
    common (pre ++ f :: fs') (c :: ss') ≤
        n + 2 * between (c :: ss') (pre ++ f :: fs') + lag (c :: ss') (pre ++ f :: fs') := by
  have haf : ∀ t ∈ fs', f < t :=
    (List.pairwise_cons.1 (List.pairwise_append.1 ha).2.1).1
  have hbc : ∀ s ∈ ss', c < s := (List.pairwise_cons.1 hb).1
  have hcom : common (pre ++ f :: fs') (c :: ss') ≤ common fs' ss' + 1 := by
    apply common_le_succ f
    intro x hx hx'
    rw [List.mem_append, List.mem_cons] at hx
    rw [List.mem_cons] at hx'
    rcases hx with hx | rfl | hx
    · have h3 := hpre x hx
      rcases hx' with rfl | hx'
      · omega
      · have := hbc x hx'
        omega
    · exact .inl rfl
    · have h3 := haf x hx
      rcases hx' with rfl | hx'
      · omega
      · exact .inr ⟨hx, hx'⟩
  obtain ⟨t0, ht0⟩ := List.exists_mem_of_ne_nil pre hne
  constructor
  · have ha' : ((pre ++ [f]) ++ fs').Pairwise (· < ·) := by simpa using ha
    have h3 := between_lt (a' := fs') (prb := [c]) (b' := ss') ha' (x := c) (by simp) ?_
      ⟨t0, by simp [ht0], hpre t0 ht0⟩ ⟨f, by simp, hcf⟩
      (.inl (fun h => by have := hbc c h; omega))
    · have h4 := lag_le fs' ss'
      simp only [List.append_assoc, List.singleton_append] at h3
      omega
    · rw [List.mem_append, List.mem_append]
      rintro ((h | h) | h)
      · have := hpre c h
        omega
      · have := List.mem_singleton.1 h
        omega
      · have := haf c h
        omega
  · have h3 := between_settle (pre := [c]) (a' := ss') (prb := pre ++ [f]) (b' := fs')
      (by simpa using hb) (by simp) (by
        intro t ht s hs
        rw [List.mem_singleton] at ht
        have := haf s hs
        omega)
    simp only [List.append_assoc, List.singleton_append] at h3
    have h4 : lag (c :: ss') (pre ++ f :: fs') = 1 := by
      cases pre with
      | nil => exact absurd rfl hne
      | cons t pre =>
        rw [List.cons_append]
        exact if_pos (hpre t List.mem_cons_self)
    omega

/-- A turn that ends in agreement. -/
theorem turn_met {pre fs' prb ss' : List Int} {f : Int} {n : Nat}
    (ha : (pre ++ f :: fs').Pairwise (· < ·)) (hb : (prb ++ f :: ss').Pairwise (· < ·))
    (h1 : common fs' ss' ≤ n + 2 * between fs' ss' + lag fs' ss')
    (h2 : common fs' ss' ≤ n + 2 * between ss' fs' + lag ss' fs') (hor : pre = [] ∨ prb = []) :
    common (pre ++ f :: fs') (prb ++ f :: ss') ≤ (n + 1) +
        2 * between (pre ++ f :: fs') (prb ++ f :: ss') ∧
    common (pre ++ f :: fs') (prb ++ f :: ss') ≤ (n + 1) +
        2 * between (prb ++ f :: ss') (pre ++ f :: fs') := by
  have haf : ∀ t ∈ fs', f < t := (List.pairwise_cons.1 (List.pairwise_append.1 ha).2.1).1
  have hbf : ∀ t ∈ ss', f < t := (List.pairwise_cons.1 (List.pairwise_append.1 hb).2.1).1
  have hpre : ∀ t ∈ pre, t < f := fun t ht =>
    (List.pairwise_append.1 ha).2.2 t ht f List.mem_cons_self
  have hprb : ∀ t ∈ prb, t < f := fun t ht =>
    (List.pairwise_append.1 hb).2.2 t ht f List.mem_cons_self
  have hcom : common (pre ++ f :: fs') (prb ++ f :: ss') ≤ common fs' ss' + 1 := by
    apply common_le_succ f
    intro x hx hx'
    rw [List.mem_append, List.mem_cons] at hx hx'
    rcases hx with hx | rfl | hx
    · have h3 := hpre x hx
      rcases hx' with hx' | rfl | hx'
      · rcases hor with rfl | rfl
        · cases hx
        · cases hx'
      · omega
      · have := hbf x hx'
        omega
    · exact .inl rfl
    · have h3 := haf x hx
      rcases hx' with hx' | rfl | hx'
      · have := hprb x hx'
        omega
      · omega
      · exact .inr ⟨hx, hx'⟩
  have h3 := between_settle (pre := pre ++ [f]) (a' := fs') (prb := prb ++ [f]) (b' := ss')
    (by simpa using ha) (by simp) (by
      intro t ht s hs
      have h5 := hbf s hs
      rcases List.mem_append.1 ht with h | h
      · have := hpre t h
        omega
      · have := List.mem_singleton.1 h
        omega)
  have h4 := between_settle (pre := prb ++ [f]) (a' := ss') (prb := pre ++ [f]) (b' := fs')
    (by simpa using hb) (by simp) (by
      intro t ht s hs
      have h5 := haf s hs
      rcases List.mem_append.1 ht with h | h
      · have := hprb t h
        omega
      · have := List.mem_singleton.1 h
        omega)
  simp only [List.append_assoc, List.singleton_append] at h3 h4
  omega

/-- How many frames are lost, from the frames and steps that are left. -/
theorem exp_lost (m : Int) (fe : Option PyErr) : ∀ (n : Nat) (fs : List (GFrame α))
    (ss : List (Int × List Nat)), fs.length ≤ n → (fs.map GFrame.timestep).Pairwise (· < ·) →
    (ss.map Prod.fst).Pairwise (· < ·) → (∀ s ∈ ss, s.1 ≤ m) →
    common (fs.map GFrame.timestep) (ss.map Prod.fst) ≤ (expReader m fe fs ss).1.length +
      2 * between (fs.map GFrame.timestep) (ss.map Prod.fst) +
      lag (fs.map GFrame.timestep) (ss.map Prod.fst) ∧
    common (fs.map GFrame.timestep) (ss.map Prod.fst) ≤ (expReader m fe fs ss).1.length +
      2 * between (ss.map Prod.fst) (fs.map GFrame.timestep) +
      lag (ss.map Prod.fst) (fs.map GFrame.timestep) := by
  intro n
  induction n with
  | zero =>
    intro fs ss hn _ _ _
    have : fs = [] := List.eq_nil_of_length_eq_zero (by omega)
    subst this
    rw [common_zero (by simp)]
    omega
  | succ n ih =>
    intro fs ss hn ha hb hm
    cases fs with
    | nil =>
      rw [common_zero (by simp)]
      omega
    | cons f fs =>
    cases ss with
    | nil =>
      rw [common_zero (by simp)]
      omega
    | cons cur ss =>
    have hemit : ∀ (c : Int × List Nat) (g : GFrame α)
        (next : List (List Nat × GFrame α) × Option PyErr), c.1 ≤ m →
        (emit m c g next).1.length = next.1.length + if c.1 = g.timestep then 1 else 0 := by
      intro c g next hc
      unfold emit
      rw [if_neg (by omega)]
      split <;> simp
    rw [expReader]
    split
    · -- the step is after the frame
      rename_i hgt
      rcases catchFrames_split m fe cur ss fs with ⟨h1, h2⟩ | ⟨pre, g, fs', h1, h2, h3, h4⟩
      · rw [common_zero]
        · omega
        · intro x hx hx'
          obtain ⟨y, hy, rfl⟩ := List.mem_map.1 hx
          have hy' : y.timestep < cur.1 := by
            rcases List.mem_cons.1 hy with rfl | hy
            · exact hgt
            · exact h2 y hy
          rw [List.map_cons, List.mem_cons] at hx'
          rcases hx' with h | h
          · omega
          · have := (List.pairwise_cons.1 hb).1 _ h
            omega
      · rw [h4, hemit _ _ _ (hm cur List.mem_cons_self)]
        subst h1
        have hlist : (f :: (pre ++ g :: fs')).map GFrame.timestep =
            (f :: pre).map GFrame.timestep ++ g.timestep :: fs'.map GFrame.timestep := by simp
        have hsteps : (cur :: ss).map Prod.fst = cur.1 :: ss.map Prod.fst := rfl
        rw [hlist] at ha ⊢
        rw [hsteps] at hb ⊢
        obtain ⟨i1, i2⟩ := ih fs' ss (by simp at hn; omega)
          (List.pairwise_cons.1 (List.pairwise_append.1 ha).2.1).2 (List.pairwise_cons.1 hb).2
          (fun s hs => hm s (List.mem_cons_of_mem _ hs))
        split
        · rename_i heq
          rw [heq] at hb ⊢
          obtain ⟨j1, j2⟩ := turn_met (prb := []) ha (by simpa using hb) i1 i2 (.inr rfl)
          simp only [List.nil_append] at j1 j2
          omega
        · exact turn_lost ha hb (by simp) (by
            intro t ht
            obtain ⟨y, hy, rfl⟩ := List.mem_map.1 ht
            rcases List.mem_cons.1 hy with rfl | hy
            · exact hgt
            · exact h2 y hy) (by omega) i1 i2
    · rename_i hgt
      split
      · -- the step is before the frame
        rename_i hlt
        rcases catchSteps_split f.timestep ss cur with ⟨h1, h2⟩ | ⟨prb, c, ss', h1, h2, h3, h4⟩
        · rw [h1, common_zero]
          · omega
          · intro x hx hx'
            obtain ⟨y, hy, rfl⟩ := List.mem_map.1 hx'
            have hy' := h2 y hy
            rw [List.map_cons, List.mem_cons] at hx
            rcases hx with h | h
            · omega
            · have := (List.pairwise_cons.1 ha).1 _ h
              omega
        · rw [h4]
          simp only
          rw [h1] at hb hm ⊢
          have hprb : prb ≠ [] := by
            rintro rfl
            simp only [List.nil_append, List.cons.injEq] at h1
            rw [h1.1] at hlt
            omega
          rw [hemit _ _ _ (hm c (by simp))]
          rw [List.map_append, List.map_cons] at hb ⊢
          rw [List.map_cons] at ha ⊢
          obtain ⟨i1, i2⟩ := ih fs ss' (by simp at hn; omega) (List.pairwise_cons.1 ha).2
            (List.pairwise_cons.1 (List.pairwise_append.1 hb).2.1).2
            (fun s hs => hm s (by simp [hs]))
          split
          · rename_i heq
            rw [heq] at hb ⊢
            obtain ⟨j1, j2⟩ := turn_met (pre := []) (by simpa using ha) hb i1 i2 (.inl rfl)
            simp only [List.nil_append] at j1 j2
            omega
          · rw [common_comm]
            rw [common_comm] at i1 i2
            obtain ⟨j1, j2⟩ := turn_lost hb ha (by simpa using hprb) (by
              intro t ht
              obtain ⟨y, hy, rfl⟩ := List.mem_map.1 ht
              exact h2 y hy) (by omega) i2 i1
            exact ⟨by omega, by omega⟩
      · -- they agree
        have heq : cur.1 = f.timestep := by omega
        rw [hemit _ _ _ (hm cur List.mem_cons_self), if_pos heq]
        rw [List.map_cons] at ha hb ⊢
        rw [List.map_cons]
        rw [heq] at hb ⊢
        obtain ⟨i1, i2⟩ := ih fs ss (by simp at hn; omega) (List.pairwise_cons.1 ha).2
          (List.pairwise_cons.1 hb).2 (fun s hs => hm s (List.mem_cons_of_mem _ hs))
        obtain ⟨j1, j2⟩ := turn_met (pre := []) (prb := []) (by simpa using ha) (by simpa using hb)
          i1 i2 (.inl rfl)
        simp only [List.nil_append] at j1 j2
        omega

end Verif.Gsd
