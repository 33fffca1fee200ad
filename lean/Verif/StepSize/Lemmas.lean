import Mathlib.Tactic.Linarith
import Mathlib.Tactic.Ring
import Mathlib.Data.List.Basic
import Verif.StepSize.Model
import Verif.StepSize.Spec
/-!
# Helper lemmas for `exp_sequence` and `generate_steps`
-/

namespace Verif.StepSize

theorem mem_pyRange (n x : Int) : x ∈ pyRange n ↔ 0 ≤ x ∧ x < n := by
  simp only [pyRange, List.mem_map, List.mem_range]
  constructor
  · rintro ⟨a, ha, rfl⟩
    simp only [Int.ofNat_eq_natCast]; omega
  · rintro ⟨h0, h1⟩
    exact ⟨x.toNat, by omega, by simp only [Int.ofNat_eq_natCast]; omega⟩

theorem pyRange_pairwise (n : Int) : (pyRange n).Pairwise (· < ·) := by
  unfold pyRange
  rw [List.pairwise_map]
  refine List.Pairwise.imp ?_ List.pairwise_lt_range
  intro a b h
  simpa using h

theorem mem_expPass (start nl curr size x : Int) :
    x ∈ expPass start nl curr size ↔
      curr < x ∧ ∃ i : Nat, (i : Int) ≤ nl ∧ x = start + i * size := by
  unfold expPass
  simp only [List.mem_filter, List.mem_map, mem_pyRange, decide_eq_true_eq, gt_iff_lt]
  constructor
  · rintro ⟨⟨a, ⟨h0, h1⟩, rfl⟩, h2⟩
    refine ⟨h2, a.toNat, by omega, ?_⟩
    have : ((a.toNat : Nat) : Int) = a := by omega
    rw [this]
  · rintro ⟨h, i, hi, rfl⟩
    exact ⟨⟨i, ⟨by omega, by omega⟩, rfl⟩, h⟩

theorem expPass_pairwise (start nl curr size : Int) (hs : 0 < size) :
    (expPass start nl curr size).Pairwise (· < ·) := by
  unfold expPass
  apply List.Pairwise.filter
  rw [List.pairwise_map]
  refine List.Pairwise.imp ?_ (pyRange_pairwise _)
  intro a b h
  have := mul_lt_mul_of_pos_right h hs
  simpa using this

/-- For `num_linear ≤ 0` every pass is silent (when no value exceeds the current step). -/
theorem expPass_silent (start nl curr size : Int) (hnl : nl ≤ 0) (hc : start ≤ curr) :
    expPass start nl curr size = [] := by
  rw [List.eq_nil_iff_forall_not_mem]
  intro x hx
  rw [mem_expPass] at hx
  obtain ⟨h, i, hi, rfl⟩ := hx
  have : i = 0 := by omega
  subst this
  simp at h
  omega

theorem expPass_le (start nl curr size x : Int) (hs : 0 < size)
    (h : x ∈ expPass start nl curr size) : x ≤ start + nl * size := by
  rw [mem_expPass] at h
  obtain ⟨_, i, hi, rfl⟩ := h
  have := mul_le_mul_of_nonneg_right hi hs.le
  linarith

theorem mem_expLoop (start nl : Int) (n : Nat) :
    ∀ (curr size x : Int), x ∈ expLoop start nl 10 n curr size ↔
      ∃ j < n, ∃ i : Nat, (i : Int) ≤ nl ∧ x = start + i * (size * 10 ^ j) ∧
        (if j = 0 then curr else start + nl * (size * 10 ^ (j - 1))) < x := by
  induction n with
  | zero => intro curr size x; simp [expLoop]
  | succ n ih =>
    intro curr size x
    rw [expLoop, List.mem_append, mem_expPass, ih]
    constructor
    · rintro (⟨h, i, hi, rfl⟩ | ⟨j, hj, i, hi, rfl, h⟩)
      · exact ⟨0, by omega, i, hi, by simp, by simpa using h⟩
      · refine ⟨j + 1, by omega, i, hi, by ring, ?_⟩
        rcases Nat.eq_zero_or_pos j with rfl | hj0
        · simpa using h
        · simp only [Nat.succ_ne_zero, if_false, Nat.add_sub_cancel]
          rw [if_neg (by omega)] at h
          have : size * 10 * 10 ^ (j - 1) = size * 10 ^ j := by
            obtain ⟨m, rfl⟩ : ∃ m, j = m + 1 := ⟨j - 1, by omega⟩
            simp only [Nat.add_sub_cancel]; ring
          rw [this] at h
          exact h
    · rintro ⟨j, hj, i, hi, rfl, h⟩
      rcases Nat.eq_zero_or_pos j with rfl | hj0
      · left
        exact ⟨by simpa using h, i, hi, by simp⟩
      · right
        obtain ⟨m, rfl⟩ : ∃ m, j = m + 1 := ⟨j - 1, by omega⟩
        refine ⟨m, by omega, i, hi, by ring, ?_⟩
        simp only [Nat.succ_ne_zero, if_false, Nat.add_sub_cancel] at h
        rcases Nat.eq_zero_or_pos m with rfl | hm0
        · simpa using h
        · rw [if_neg (by omega)]
          obtain ⟨p, rfl⟩ : ∃ p, m = p + 1 := ⟨m - 1, by omega⟩
          simp only [Nat.add_sub_cancel]
          have : size * 10 * 10 ^ p = size * 10 ^ (p + 1) := by ring
          rw [this]
          exact h

theorem expLoop_gt (start nl : Int) (hnl : 1 ≤ nl) (n : Nat) :
    ∀ (curr size : Int), 0 < size → curr ≤ start + nl * size →
      ∀ x ∈ expLoop start nl 10 n curr size, curr < x := by
  induction n with
  | zero => intro curr size _ _ x hx; simp [expLoop] at hx
  | succ n ih =>
    intro curr size hs hc x hx
    rw [expLoop, List.mem_append] at hx
    rcases hx with hx | hx
    · exact ((mem_expPass ..).1 hx).1
    · have := ih (start + nl * size) (size * 10) (by omega) (by nlinarith) x hx
      omega

theorem expLoop_pairwise (start nl : Int) (hnl : 1 ≤ nl) (n : Nat) :
    ∀ (curr size : Int), 0 < size → (expLoop start nl 10 n curr size).Pairwise (· < ·) := by
  induction n with
  | zero => intro curr size _; simp [expLoop]
  | succ n ih =>
    intro curr size hs
    rw [expLoop, List.pairwise_append]
    refine ⟨expPass_pairwise _ _ _ _ hs, ih _ _ (by omega), ?_⟩
    intro a ha b hb
    have h1 := expPass_le _ _ _ _ _ hs ha
    have h2 := expLoop_gt start nl hnl n (start + nl * size) (size * 10) (by omega)
      (by nlinarith) b hb
    omega

theorem expLoop_prefix (start nl base : Int) (n : Nat) :
    ∀ (m : Nat) (curr size : Int), n ≤ m →
      expLoop start nl base n curr size <+: expLoop start nl base m curr size := by
  induction n with
  | zero => intro m curr size _; simp [expLoop]
  | succ n ih =>
    intro m curr size h
    obtain ⟨m, rfl⟩ : ∃ k, m = k + 1 := ⟨m - 1, by omega⟩
    rw [expLoop, expLoop]
    rw [List.prefix_append_right_inj]
    exact ih m _ _ (by omega)

theorem expSequence_prefix (start nl iss base : Int) {n m : Nat} (h : n ≤ m) :
    expSequence start nl iss base n <+: expSequence start nl iss base m := by
  unfold expSequence
  rw [List.cons_prefix_cons]
  exact ⟨rfl, expLoop_prefix _ _ _ _ _ _ _ h⟩

theorem expSequence_pairwise (start nl : Int) (hnl : 1 ≤ nl) (n : Nat) :
    (expSequence start nl 1 10 n).Pairwise (· < ·) := by
  unfold expSequence
  rw [List.pairwise_cons]
  exact ⟨fun x hx => expLoop_gt start nl hnl n start 1 (by omega) (by omega) x hx,
    expLoop_pairwise start nl hnl n _ _ (by omega)⟩

/-- The last value of pass `n` is in the sequence. -/
theorem last_mem_expLoop (start nl : Int) (hnl : 1 ≤ nl) (n : Nat) :
    start + nl * 10 ^ n ∈ expLoop start nl 10 (n + 1) start 1 := by
  rw [mem_expLoop]
  refine ⟨n, by omega, nl.toNat, by omega, ?_, ?_⟩
  · have : ((nl.toNat : Nat) : Int) = nl := by omega
    rw [this]; ring
  · rcases Nat.eq_zero_or_pos n with rfl | h
    · simp; omega
    · rw [if_neg (by omega)]
      obtain ⟨m, rfl⟩ : ∃ m, n = m + 1 := ⟨n - 1, by omega⟩
      simp only [Nat.add_sub_cancel]
      have : (0:Int) < 10 ^ m := by positivity
      rw [pow_succ]
      nlinarith

theorem takeWhile_append_of_any {α : Type} (p : α → Bool) (l₁ l₂ : List α)
    (h : l₁.any (fun x => !p x) = true) : (l₁ ++ l₂).takeWhile p = l₁.takeWhile p := by
  induction l₁ with
  | nil => simp at h
  | cons a l ih =>
    by_cases ha : p a = true
    · simp only [List.cons_append, List.takeWhile_cons, ha, if_true]
      congr 1
      apply ih
      simpa [ha] using h
    · simp [ha]

theorem takeWhile_eq_filter (l : List Int) (t : Int) (h : l.Pairwise (· < ·)) :
    l.takeWhile (fun x => decide (x < t)) = l.filter (fun x => decide (x < t)) := by
  induction l with
  | nil => rfl
  | cons a l ih =>
    rw [List.pairwise_cons] at h
    by_cases ha : a < t
    · simp only [List.takeWhile_cons, List.filter_cons, ha, decide_true, if_true]
      rw [ih h.2]
    · simp only [List.takeWhile_cons, List.filter_cons, ha, decide_false]
      symm
      simp only [Bool.false_eq_true, if_false]
      rw [List.filter_eq_nil_iff]
      intro b hb
      have := h.1 b hb
      simp; omega

theorem runSteps_mono (total nl start : Int) {n m : Nat} (h : n ≤ m) (L : List Int)
    (hL : runSteps total nl start n = some L) : runSteps total nl start m = some L := by
  obtain ⟨t, ht⟩ := expSequence_prefix start nl 1 10 h
  unfold runSteps at hL ⊢
  simp only at hL ⊢
  rw [← ht]
  split at hL
  · rename_i hany
    rw [if_pos (by rw [List.any_append, hany]; rfl)]
    rw [takeWhile_append_of_any _ _ _ (by
      rw [← hany]; congr 1; funext x; by_cases hx : x < total <;> simp [hx])]
    exact hL
  · exact absurd hL (by simp)

theorem pow_ten_gt (d : Nat) : d < 10 ^ (d.log2 + 1) := by
  have h1 : d < 2 ^ (d.log2 + 1) := Nat.lt_log2_self
  have h2 : 2 ^ (d.log2 + 1) ≤ 10 ^ (d.log2 + 1) := Nat.pow_le_pow_left (by omega) _
  omega

theorem runSteps_enough (total nl start : Int) (hnl : 1 ≤ nl) :
    runSteps total nl start (enough total start) =
      some ((expSequence start nl 1 10 (enough total start)).filter (fun x => decide (x < total))
        ++ [total]) := by
  unfold runSteps
  simp only
  rw [if_pos, takeWhile_eq_filter _ _ (expSequence_pairwise start nl hnl _)]
  rw [List.any_eq_true]
  -- one pass more than needed: use the last value of the last pass
  refine ⟨start + nl * 10 ^ ((total - start).toNat.log2 + 1), ?_, ?_⟩
  · unfold expSequence enough
    exact List.mem_cons_of_mem _ (last_mem_expLoop start nl hnl _)
  · have h := pow_ten_gt (total - start).toNat
    have h' : ((total - start).toNat : Int) < 10 ^ ((total - start).toNat.log2 + 1) := by
      exact_mod_cast h
    have : total - start ≤ ((total - start).toNat : Int) := by omega
    simp only [decide_eq_true_eq, not_lt]
    nlinarith

theorem generateSteps_eq (total nl start : Int) (hnl : 1 ≤ nl) :
    generateSteps total nl start =
      (expSequence start nl 1 10 (enough total start)).filter (fun x => decide (x < total))
        ++ [total] := by
  rw [generateSteps, runSteps_enough _ _ _ hnl]; rfl

theorem runSteps_eq_generateSteps (total nl start : Int) (hnl : 1 ≤ nl) {n : Nat}
    (h : enough total start ≤ n) :
    runSteps total nl start n = some (generateSteps total nl start) := by
  rw [generateSteps_eq _ _ _ hnl]
  exact runSteps_mono _ _ _ h _ (runSteps_enough _ _ _ hnl)

/-- Members below `total`, for any number of passes that is at least `enough`. -/
theorem mem_generateSteps (total nl start x : Int) (hnl : 1 ≤ nl) :
    x ∈ generateSteps total nl start ↔ Wants total nl start x := by
  have key : ∀ y, y < total → (y ∈ expSequence start nl 1 10 (enough total start) ↔
      (start ≤ y ∧ OnGrid nl (y - start))) := by
    intro y hy
    unfold expSequence
    rw [List.mem_cons, mem_expLoop]
    constructor
    · rintro (rfl | ⟨j, _, i, hi, rfl, h⟩)
      · exact ⟨le_refl _, 0, 0, by omega, by simp, Or.inl rfl⟩
      · rw [one_mul]
        refine ⟨?_, j, i, hi, by ring, ?_⟩
        · have : (0:Int) ≤ i * 10 ^ j := by positivity
          omega
        · by_cases hj : j = 0
          · exact Or.inl hj
          · right
            rw [if_neg hj] at h
            simp only [one_mul] at h
            linarith
    · rintro ⟨h0, k, i, hi, he, hk⟩
      by_cases hz : y = start
      · exact Or.inl hz
      right
      -- the decade `k` is among the passes made
      by_cases hkn : k < enough total start
      · refine ⟨k, hkn, i, hi, by rw [one_mul]; linarith, ?_⟩
        rcases hk with rfl | hk
        · simp; omega
        · by_cases hk0 : k = 0
          · subst hk0; simp; omega
          · rw [if_neg hk0, one_mul]; linarith
      · exfalso
        have h1 : (1:Int) ≤ i := by
          rcases Nat.eq_zero_or_pos i with rfl | h
          · simp at he; omega
          · omega
        have h := pow_ten_gt (total - start).toNat
        have h' : ((total - start).toNat : Int) < 10 ^ ((total - start).toNat.log2 + 1) := by
          exact_mod_cast h
        have h2 : (10:Int) ^ ((total - start).toNat.log2 + 1) ≤ 10 ^ k :=
          pow_le_pow_right₀ (by norm_num) (by unfold enough at hkn; omega)
        have h3 : total - start ≤ ((total - start).toNat : Int) := by omega
        have h4 : (10:Int) ^ k ≤ i * 10 ^ k := by
          have : (0:Int) < 10 ^ k := by positivity
          nlinarith
        linarith
  rw [generateSteps_eq _ _ _ hnl, List.mem_append, List.mem_filter, List.mem_singleton]
  unfold Wants
  constructor
  · rintro (⟨h, ht⟩ | h)
    · have ht : x < total := by simpa using ht
      obtain ⟨h1, h2⟩ := (key x ht).1 h
      exact Or.inr ⟨h1, ht, h2⟩
    · exact Or.inl h
  · rintro (h | ⟨h1, ht, h2⟩)
    · exact Or.inr h
    · exact Or.inl ⟨(key x ht).2 ⟨h1, h2⟩, by simpa using ht⟩

theorem generateSteps_pairwise (total nl start : Int) (hnl : 1 ≤ nl) :
    (generateSteps total nl start).Pairwise (· < ·) := by
  rw [generateSteps_eq _ _ _ hnl, List.pairwise_append]
  refine ⟨(expSequence_pairwise start nl hnl _).filter _, by simp, ?_⟩
  intro a ha b hb
  rw [List.mem_filter] at ha
  rw [List.mem_singleton] at hb
  subst hb
  simpa using ha.2

theorem generateSteps_head (total nl start : Int) (hnl : 1 ≤ nl) :
    (generateSteps total nl start).head? = some (if start < total then start else total) := by
  rw [generateSteps_eq _ _ _ hnl]
  unfold expSequence
  by_cases h : start < total
  · simp [h]
  · have : ((start :: expLoop start nl 10 (enough total start) start 1).filter
        (fun x => decide (x < total))) = [] := by
      rw [List.filter_eq_nil_iff]
      intro x hx
      rw [List.mem_cons] at hx
      rcases hx with rfl | hx
      · simpa using h
      · have := expLoop_gt start nl hnl _ start 1 (by omega) (by omega) x hx
        simp; omega
    rw [this]
    simp [h]

theorem generateSteps_getLast (total nl start : Int) (hnl : 1 ≤ nl) :
    (generateSteps total nl start).getLast? = some total := by
  rw [generateSteps_eq _ _ _ hnl]
  simp

theorem generateSteps_of_ge (total nl start : Int) (hnl : 1 ≤ nl) (h : total ≤ start) :
    generateSteps total nl start = [total] := by
  have h1 := generateSteps_head total nl start hnl
  have h2 := generateSteps_pairwise total nl start hnl
  have h3 := fun x => mem_generateSteps total nl start x hnl
  match hl : generateSteps total nl start with
  | [] => rw [hl] at h1; simp at h1
  | [a] =>
    rw [hl] at h1
    have : ¬ start < total := by omega
    simp [this] at h1
    rw [h1]
  | a :: b :: l =>
    exfalso
    have hb : b ∈ generateSteps total nl start := by rw [hl]; simp
    have ha : a ∈ generateSteps total nl start := by rw [hl]; simp
    rw [hl] at h2
    simp only [List.pairwise_cons] at h2
    have hab := h2.1 b (by simp)
    rw [h3] at ha hb
    unfold Wants at ha hb
    omega

end Verif.StepSize
