import Verif.Dynamics.Overlap
import Verif.Dynamics.Props
/-!
# C36, C37: `structural_relax` and `mobile_overlap`
-/

namespace Verif.Dynamics

open Verif.Motion

open Classical in
/-- **C36**.  `structural_relax` is the proportion of displacements below `dist`, NaN not being
counted; it is in [0, 1], and 1 when nothing moved. -/
theorem C36_proportion (l : List (Option ℝ)) (hl : l ≠ []) (dist : ℝ) :
    ∃ x, structuralRelax false l dist = some x ∧
      x = (l.countP (fun d => decide (Below dist d)) : ℝ) / l.length ∧ 0 ≤ x ∧ x ≤ 1 ∧
      (0 < dist → (∀ d ∈ l, d = some 0) → x = 1) := by
  have hpos : (0 : ℝ) < l.length := by exact_mod_cast List.length_pos_iff.2 hl
  refine ⟨_, structuralRelax_eq l dist, rfl, by positivity, ?_, ?_⟩
  · rw [div_le_one hpos]
    exact_mod_cast List.countP_le_length
  · intro hd h0
    have : l.countP (fun d => decide (Below dist d)) = l.length := by
      rw [List.countP_eq_length]
      intro d hd'
      simp [h0 d hd', Below, hd]
    rw [this, div_self hpos.ne']

/-- Four displacements, one unknown: two are below 1. -/
example : ∃ x, structuralRelax false [some 0, some (1 / 2), some 3, none] 1 = some x ∧ 0 ≤ x ∧ x ≤ 1 := by
  obtain ⟨x, h, -, h0, h1, -⟩ := C36_proportion [some 0, some (1 / 2), some 3, none] (by simp) 1
  exact ⟨x, h, h0, h1⟩

/-- **C36**, it grows with the distance and shrinks when displacements grow. -/
theorem C36_monotone (l l' : List (Option ℝ)) (dist dist' : ℝ) (hd : dist' ≤ dist)
    (h : List.Forall₂ Grew l l') :
    ∃ x x', structuralRelax false l dist = some x ∧ structuralRelax false l' dist' = some x' ∧
      x' ≤ x := by
  classical
  refine ⟨_, _, structuralRelax_eq l dist, structuralRelax_eq l' dist', ?_⟩
  rw [h.length_eq]
  apply div_le_div_of_nonneg_right _ (Nat.cast_nonneg _)
  norm_cast
  induction h with
  | nil => simp
  | @cons a b _ _ hab _ ih =>
    rw [List.countP_cons, List.countP_cons]
    apply Nat.add_le_add ih
    by_cases hb : Below dist' b
    · have ha : Below dist a := by
        cases b with
        | none => exact hb.elim
        | some y =>
          cases a with
          | none => exact hab.elim
          | some x =>
            simp only [Below, Grew] at *
            linarith
      simp [ha, hb]
    · simp [hb]

/-- The hypotheses of `C36_monotone`: one displacement grows, another one becomes NaN. -/
example : List.Forall₂ Grew [some 1, some 2, some 3] [some 2, none, some 3] := by
  simp [Grew]

/-- **C36**, a numpy that signals comparisons with NaN: NaN when there is a NaN, the same as above
otherwise. -/
theorem C36_signals (l : List (Option ℝ)) (dist : ℝ) :
    (none ∈ l → structuralRelax true l dist = none) ∧
      (none ∉ l → structuralRelax true l dist = structuralRelax false l dist) := by
  constructor
  · intro h
    unfold structuralRelax
    have : l.any Option.isNone = true := List.any_eq_true.2 ⟨none, h, rfl⟩
    simp [this]
  · intro h
    unfold structuralRelax
    have : l.any Option.isNone = false := by
      rw [List.any_eq_false]
      intro x hx
      cases x with
      | none => exact absurd hx h
      | some x => simp
    simp [this]

open Classical in
/-- **C36** for "com_struct" as reported: the proportion of molecules that moved less than a quarter
of the wave length. -/
theorem C36_com_struct {argsort : List ℝ → List ℕ} {D D' : Dyn} {t : ℤ} {pos : List V3}
    {ori : Option (List Quat)} {sc : Bool} {row : Dict Quantity Val}
    (h : D.computeAll argsort t pos ori sc = (D', .ok row)) {k : ℝ} (hk : D.waveNumber = some k)
    {N : ℕ} (d : Fin N → V3) (hd : D'.motion.deltaT = List.ofFn d) :
    Reports row .com_struct
      (((Finset.univ.filter (fun m => len (d m) < Real.pi / (2 * k))).card : ℝ) / N) := by
  obtain ⟨hadd, hq⟩ := computeAll_ok h
  obtain ⟨al, isf, distance, ar, ga, ov, st, -, -, hdist, -, -, -, -, rfl⟩ := quantities_ok hq
  have hw := add_wave hadd
  unfold Dyn.distance at hdist
  rw [hw.1, hk] at hdist
  simp only at hdist
  split at hdist
  · cases hdist
  · obtain rfl := Except.ok.inj hdist
    have : comVal D' (some (Real.pi / (2 * k))) =
        some (((Finset.univ.filter (fun m => len (d m) < Real.pi / (2 * k))).card : ℝ) / N) := by
      unfold comVal
      simp only
      rw [structuralRelax_eq, displacement_ofFn hd, map_ofFn', List.length_ofFn,
        List.countP_eq_length_filter, length_filter_ofFn]
      congr 3
    unfold Reports
    rw [this]
    rfl

/-- The hypotheses are met by ten molecules of which one moves, with wave number 2. -/
example (argsort : List ℝ → List ℕ) : ∃ (row : Dict Quantity Val) (d : Fin 10 → V3),
    Reports row .com_struct
      (((Finset.univ.filter (fun m => len (d m) < Real.pi / (2 * 2))).card : ℝ) / (10 : ℕ)) := by
  obtain ⟨row, hrow⟩ := quantities_succeeds
    (D := dynAfter (⟨10, 10, 1, 0, 0, 0, true⟩ : Cell).box (some exMol) (some 2) 360 0 exS exO 1)
    argsort 5 true (N := 10) le_rfl rfl rfl rfl (by simp [dynAfter]) (by simp [dynAfter])
    (by simp [dynAfter, exMol])
  exact ⟨row, _, C36_com_struct (D := dynAfter (⟨10, 10, 1, 0, 0, 0, true⟩ : Cell).box (some exMol)
    (some 2) 360 0 exS exO 0)
    ((computeAll_dynAfter argsort _ _ _ _ _ _ _ _ exO_unit 0 true).trans (by rw [hrow])) rfl _ rfl⟩

/-! ## `mobile_overlap` -/

theorem one_le_num {n : ℕ} (hn : 10 ≤ n) : 0 < ⌊(n : ℚ) * (1 / 10)⌋₊ := by
  rw [Nat.floor_pos]
  have : (10 : ℚ) ≤ n := by exact_mod_cast hn
  linarith

/-- **C37**, partial: for ten molecules or more the overlap exists and is in [0, 1].  Missing: fewer
than ten molecules, where it does not exist (`C37_refuted`). -/
theorem C37_range_partial {argsort : List ℝ → List ℕ} (hs : Sorts argsort) (a b : List ℝ)
    (hn : 10 ≤ a.length) :
    ∃ x, mobileOverlap argsort a b = .ok x ∧ 0 ≤ x ∧ x ≤ 1 := by
  have hk := one_le_num hn
  rw [mobileOverlap_eq argsort hs, if_neg hk.ne']
  refine ⟨_, rfl, by positivity, ?_⟩
  rw [div_le_one (by exact_mod_cast hk)]
  norm_cast
  refine (Finset.card_le_card Finset.inter_subset_left).trans ?_
  refine (List.toFinset_card_le _).trans ?_
  rw [lastN_length hk]
  rw [hs.length]
  have h1 : ((⌊(a.length : ℚ) * (1 / 10)⌋₊ : ℕ) : ℚ) ≤ (a.length : ℚ) * (1 / 10) :=
    Nat.floor_le (by positivity)
  have h2 : ((⌊(a.length : ℚ) * (1 / 10)⌋₊ : ℕ) : ℚ) ≤ a.length := by
    have : (0 : ℚ) ≤ a.length := Nat.cast_nonneg _
    linarith
  exact_mod_cast h2

/-- Twenty molecules. -/
example {argsort : List ℝ → List ℕ} (hs : Sorts argsort) :
    ∃ x, mobileOverlap argsort ((List.range 20).map (fun n => (n : ℝ)))
      ((List.range 20).map (fun n => (n : ℝ) ^ 2)) = .ok x ∧ 0 ≤ x ∧ x ≤ 1 :=
  C37_range_partial hs _ _ (by simp)

open Classical in
/-- **C37**, what it is when no two values are equal: the number of molecules that are mobile in both
respects, among the `k` mobile ones. -/
theorem C37_value {argsort : List ℝ → List ℕ} (hs : Sorts argsort) {n : ℕ} (f g : Fin n → ℝ)
    (hf : Function.Injective f) (hg : Function.Injective (fun m => |g m|)) (q : ℚ)
    (hk : 0 < ⌊(n : ℚ) * q⌋₊) :
    mobileOverlap argsort (List.ofFn f) (List.ofFn g) q =
      .ok (((Finset.univ.filter (fun m => Mobile f ⌊(n : ℚ) * q⌋₊ m ∧
        Mobile (fun m => |g m|) ⌊(n : ℚ) * q⌋₊ m)).card : ℝ) / (⌊(n : ℚ) * q⌋₊ : ℝ)) := by
  rw [mobileOverlap_eq argsort hs, List.length_ofFn, if_neg hk.ne', map_ofFn']
  congr 3
  rw [← Finset.card_map Fin.valEmbedding]
  congr 1
  ext i
  simp only [Finset.mem_inter, List.mem_toFinset, Finset.mem_map, Finset.mem_filter,
    Finset.mem_univ, true_and, Fin.valEmbedding_apply]
  constructor
  · rintro ⟨h1, h2⟩
    have hi : i < n := by
      have := (hs (List.ofFn f)).1.mem_iff.1 (lastN_subset h1)
      simpa using this
    exact ⟨⟨i, hi⟩, ⟨(mem_lastN_iff hs hf hk ⟨i, hi⟩).1 h1, (mem_lastN_iff hs hg hk ⟨i, hi⟩).1 h2⟩,
      rfl⟩
  · rintro ⟨m, ⟨h1, h2⟩, rfl⟩
    exact ⟨(mem_lastN_iff hs hf hk m).2 h1, (mem_lastN_iff hs hg hk m).2 h2⟩

open Classical in
/-- Twenty molecules, with all displacements and all rotations different. -/
example {argsort : List ℝ → List ℕ} (hs : Sorts argsort) (f : Fin 20 → ℝ) (hf : f = fun m => (m.val : ℝ)) :
    mobileOverlap argsort (List.ofFn f) (List.ofFn f) (1 / 10) =
      .ok (((Finset.univ.filter (fun m => Mobile f ⌊((20 : ℕ) : ℚ) * (1 / 10)⌋₊ m ∧
        Mobile (fun m => |f m|) ⌊((20 : ℕ) : ℚ) * (1 / 10)⌋₊ m)).card : ℝ) /
          (⌊((20 : ℕ) : ℚ) * (1 / 10)⌋₊ : ℝ)) := by
  have h1 : Function.Injective f := by
    intro i j h
    rw [hf] at h
    exact Fin.ext (by simpa using h)
  have h2 : (fun m => |f m|) = f := by
    funext m
    rw [hf]
    exact Nat.abs_cast _
  convert C37_value hs f f h1 (by rw [h2]; exact h1) (1 / 10) (one_le_num (by norm_num))

/-- **C37**, partial: for ten molecules or more of which no two moved alike, and ranked the same by
displacement and rotation, the overlap is one. -/
theorem C37_same_ranking_partial {argsort : List ℝ → List ℕ} (hs : Sorts argsort) {n : ℕ}
    (hn : 10 ≤ n) (f g : Fin n → ℝ) (hf : Function.Injective f)
    (hfg : ∀ i j, f i < f j ↔ |g i| < |g j|) :
    mobileOverlap argsort (List.ofFn f) (List.ofFn g) = .ok 1 := by
  have hk := one_le_num hn
  have hg : Function.Injective (fun m => |g m|) := by
    intro i j hij
    simp only at hij
    rcases lt_trichotomy (f i) (f j) with h | h | h
    · have := (hfg i j).1 h
      linarith
    · exact hf h
    · have := (hfg j i).1 h
      linarith
  rw [mobileOverlap_eq argsort hs, List.length_ofFn, if_neg hk.ne', map_ofFn']
  have hset : (lastN (argsort (List.ofFn f)) ⌊(n : ℚ) * (1 / 10)⌋₊).toFinset =
      (lastN (argsort (List.ofFn fun m => |g m|)) ⌊(n : ℚ) * (1 / 10)⌋₊).toFinset := by
    ext i
    simp only [List.mem_toFinset]
    by_cases hi : i < n
    · rw [mem_lastN_iff hs hf hk ⟨i, hi⟩, mem_lastN_iff hs hg hk ⟨i, hi⟩]
      simp only [hfg]
    · constructor
      · intro h
        have := (hs _).1.mem_iff.1 (lastN_subset h)
        simp at this; omega
      · intro h
        have := (hs _).1.mem_iff.1 (lastN_subset h)
        simp at this; omega
  rw [← hset, Finset.inter_self,
    List.toFinset_card_of_nodup (lastN_nodup _ (hs.nodup _)), lastN_length hk, div_self]
  · exact_mod_cast hk.ne'
  · rw [hs.length, List.length_ofFn]
    have h1 : ((⌊(n : ℚ) * (1 / 10)⌋₊ : ℕ) : ℚ) ≤ (n : ℚ) * (1 / 10) :=
      Nat.floor_le (by positivity)
    have h2 : ((⌊(n : ℚ) * (1 / 10)⌋₊ : ℕ) : ℚ) ≤ n := by
      have : (0 : ℚ) ≤ n := Nat.cast_nonneg _
      linarith
    exact_mod_cast h2

/-- Twenty molecules ranked alike by displacement and rotation. -/
example : Function.Injective (fun m : Fin 20 => (m.val : ℝ)) ∧
    ∀ i j : Fin 20, (i.val : ℝ) < j.val ↔ |2 * (i.val : ℝ)| < |2 * (j.val : ℝ)| := by
  refine ⟨fun i j h => Fin.ext (by simpa using h), fun i j => ?_⟩
  rw [abs_of_nonneg (by positivity), abs_of_nonneg (by positivity)]
  constructor <;> intro h <;> linarith

/-- **C37**, it is symmetric for arrays of equal length that are not negative. -/
theorem C37_symmetric {argsort : List ℝ → List ℕ} (hs : Sorts argsort) (a b : List ℝ)
    (hl : a.length = b.length) (ha : ∀ x ∈ a, 0 ≤ x) (hb : ∀ x ∈ b, 0 ≤ x) (q : ℚ) :
    mobileOverlap argsort a b q = mobileOverlap argsort b a q := by
  have habs : ∀ l : List ℝ, (∀ x ∈ l, 0 ≤ x) → l.map abs = l := by
    intro l h
    conv_rhs => rw [← List.map_id l]
    apply List.map_congr_left
    intro x hx
    exact abs_of_nonneg (h x hx)
  rw [mobileOverlap_eq argsort hs, mobileOverlap_eq argsort hs, habs a ha, habs b hb, hl,
    Finset.inter_comm]

example {argsort : List ℝ → List ℕ} (hs : Sorts argsort) :
    mobileOverlap argsort [1, 2, 3] [5, 0, 1] (1 / 2) = mobileOverlap argsort [5, 0, 1] [1, 2, 3] (1 / 2) :=
  C37_symmetric hs [1, 2, 3] [5, 0, 1] rfl (by simp) (by simp) _

/-- **C37** is false: fewer than ten molecules always give a ZeroDivisionError, whatever the values
are, and so does `compute_all`. -/
theorem C37_refuted (argsort : List ℝ → List ℕ) (a b : List ℝ) (hn : a.length < 10) :
    mobileOverlap argsort a b = .error .zeroDivisionError := by
  unfold mobileOverlap
  have : ⌊(a.length : ℚ) * (1 / 10)⌋ ≤ 0 := by
    rw [← Int.lt_add_one_iff, zero_add, Int.floor_lt]
    have : (a.length : ℚ) < 10 := by exact_mod_cast hn
    push_cast
    linarith
  simp only
  rw [if_pos (by omega)]

/-- The consequence for `compute_all`: no row for fewer than ten molecules. -/
theorem C37_compute_all_refuted (argsort : List ℝ → List ℕ) (D : Dyn) (t : ℤ) (pos : List V3)
    (ori : Option (List Quat)) (sc : Bool) (hn : D.motion.deltaT.length < 10) :
    ∀ D' row, D.computeAll argsort t pos ori sc ≠ (D', .ok row) := by
  intro D' row h
  obtain ⟨hadd, hq⟩ := computeAll_ok h
  obtain ⟨al, isf, distance, ar, ga, ov, st, -, -, -, -, -, hov, -, -⟩ := quantities_ok hq
  rw [C37_refuted] at hov
  · cases hov
  · unfold Dyn.displacement
    rw [List.length_map, (add_lengths hadd).1]
    exact hn

/-- Such an argsort exists: merge sort of the indices. -/
theorem exists_sorts : ∃ argsort, Sorts argsort := by
  classical
  refine ⟨fun l => (List.range l.length).mergeSort (fun i j => decide (l.getD i 0 ≤ l.getD j 0)),
    fun l => ⟨List.mergeSort_perm _ _, ?_⟩⟩
  refine List.Pairwise.imp ?_ (List.pairwise_mergeSort (le := fun i j =>
    decide (l.getD i 0 ≤ l.getD j 0)) ?_ ?_ (List.range l.length))
  · intro i j h x y hx hy
    simpa [List.getD, hx, hy] using h
  · intro a b c h1 h2
    simp only [decide_eq_true_eq] at *
    exact h1.trans h2
  · intro a b
    simp only [Bool.or_eq_true, decide_eq_true_eq]
    exact le_total _ _

end Verif.Dynamics
