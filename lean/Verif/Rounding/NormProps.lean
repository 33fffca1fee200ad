import Verif.Rounding.WholeLemmas
/-!
# C129 to C131: lengths in single precision, and what is computed from them
-/

namespace Verif.Rounding

open Verif.Motion Verif.Dynamics

variable {sum : List ℝ → ℝ}

/-- **C129**: in whatever order numpy adds, the mean displacement (and the mean rotation) of up to 2^20 molecules
is right up to the fraction `(N + 4) / 2^23`, if no component is below 1e-6 without being zero. -/
theorem C129_mean (hs : IsSum sum) {ds : List V3} (hne : ds ≠ []) (hn : ds.length ≤ 2 ^ 20)
    (hv : ∀ v ∈ ds, Visible v) :
    RelErr ((ds.length + 4) / 2 ^ 23) (meanNorm32 sum ds) (average ds length3) := by
  have := (mean32_close hs (by norm_num) hne hn (fun v h => (norm32_close hs (hv v h)).1)
    (fun v h => (norm32_close hs (hv v h)).2)).2.rel (by omega)
  unfold RelErr meanNorm32
  refine this.trans (le_of_eq ?_)
  push_cast
  rw [zpow_neg]
  norm_num [div_eq_mul_inv]
  left
  ring

/-- **C129**, the length of each. -/
theorem C129_length (hs : IsSum sum) {v : V3} (hv : Visible v) :
    RelErr (3 / 2 ^ 23) (norm32 sum v) (length3 v) := by
  have := norm32_rel hs hv
  unfold RelErr
  refine this.trans (le_of_eq ?_)
  norm_num

/-- Ten molecules of which one has moved by (1/2, 1/2, 0). -/
example : IsSum sumLeft ∧ (((1 / 2, 1 / 2, 0) : V3) :: List.replicate 9 0) ≠ [] ∧
    ∀ v ∈ ((1 / 2, 1 / 2, 0) : V3) :: List.replicate 9 0, Visible v := by
  refine ⟨sumLeft_sum, by simp, ?_⟩
  intro v hv
  rcases List.mem_cons.1 hv with rfl | hv
  · refine ⟨.inr ?_, .inr ?_, .inl rfl⟩ <;> norm_num [abs_of_pos]
  · rw [List.eq_of_mem_replicate hv]
    exact ⟨.inl rfl, .inl rfl, .inl rfl⟩

/-! ## C130 -/

/-- **C130, the property as stated**: what is reported is the proportion of molecules that have moved less than
the distance, as a float. -/
def CountsExactly : Prop :=
  ∀ sum, IsSum sum → ∀ (ds : List V3) (d : ℝ), ds ≠ [] → (∀ v ∈ ds, Visible v) → 2 ^ (-126 : ℤ) ≤ d →
    float64.Number d → comStruct32 sum d ds = float64.fl (shorter d ds)

theorem near_count (hs : IsSum sum) {d : ℝ} (hd : 2 ^ (-126 : ℤ) ≤ d) {v : V3} (hv : Visible v) :
    (length3 v < d * (1 - 1 / 2 ^ 21) → norm32 sum v < float32.fl d) ∧
    (norm32 sum v < float32.fl d → length3 v < d * (1 + 1 / 2 ^ 21)) := by
  obtain ⟨a1, a2⟩ := abs_le.1 (norm32_rel hs hv)
  obtain ⟨b1, b2⟩ := abs_le.1 (fl32_dist hd)
  have hd0 : 0 < d := lt_of_lt_of_le (zpow_pos (by norm_num) _) hd
  have hl := length3_nonneg v
  constructor
  · intro h
    norm_num at h ⊢
    nlinarith
  · intro h
    by_contra h'
    push Not at h'
    norm_num at h'
    nlinarith

/-- **C130**, partial: it is between the proportions of molecules that have moved less than a distance one part in
2^21 smaller and larger. -/
theorem C130_partial (hs : IsSum sum) {ds : List V3} (hv : ∀ v ∈ ds, Visible v) {d : ℝ}
    (hd : 2 ^ (-126 : ℤ) ≤ d) :
    float64.fl (shorter (d * (1 - 1 / 2 ^ 21)) ds) ≤ comStruct32 sum d ds ∧
    comStruct32 sum d ds ≤ float64.fl (shorter (d * (1 + 1 / 2 ^ 21)) ds) := by
  classical
  unfold comStruct32 shorter
  have e : ((ds.map (norm32 sum)).filter (fun x => decide (x < float32.fl d))).length =
      (ds.filter (fun v => decide (norm32 sum v < float32.fl d))).length := by
    rw [List.filter_map, List.length_map]; rfl
  have hmono : ∀ (p q : V3 → Bool), (∀ v ∈ ds, p v = true → q v = true) →
      (((ds.filter p).length : ℝ) / ds.length) ≤ ((ds.filter q).length : ℝ) / ds.length := by
    intro p q h
    apply div_le_div_of_nonneg_right _ (Nat.cast_nonneg _)
    have : (ds.filter p).length ≤ (ds.filter q).length := by
      rw [← List.countP_eq_length_filter, ← List.countP_eq_length_filter]
      exact List.countP_mono_left h
    exact_mod_cast this
  constructor
  · apply fl64_mono
    have := hmono (fun v => decide (length3 v < d * (1 - 1 / 2 ^ 21)))
      (fun v => decide (norm32 sum v < float32.fl d)) (by
        intro v hm h
        simp only [decide_eq_true_eq] at h ⊢
        exact (near_count hs hd (hv v hm)).1 h)
    rw [← e] at this
    convert this
  · apply fl64_mono
    have := hmono (fun v => decide (norm32 sum v < float32.fl d))
      (fun v => decide (length3 v < d * (1 + 1 / 2 ^ 21))) (by
        intro v hm h
        simp only [decide_eq_true_eq] at h ⊢
        exact (near_count hs hd (hv v hm)).2 h)
    rw [← e] at this
    convert this

/-- **C130**, partial: exact if no molecule is that near to the distance. -/
theorem C130_apart_partial (hs : IsSum sum) {ds : List V3} (hv : ∀ v ∈ ds, Visible v) {d : ℝ}
    (hd : 2 ^ (-126 : ℤ) ≤ d)
    (hap : ∀ v ∈ ds, length3 v < d * (1 - 1 / 2 ^ 21) ∨ d * (1 + 1 / 2 ^ 21) ≤ length3 v) :
    comStruct32 sum d ds = float64.fl (shorter d ds) := by
  classical
  have hd0 : 0 < d := lt_of_lt_of_le (zpow_pos (by norm_num) _) hd
  have h : ∀ c, d * (1 - 1 / 2 ^ 21) ≤ c → c ≤ d * (1 + 1 / 2 ^ 21) → shorter c ds = shorter d ds := by
    intro c h1 h2
    unfold shorter
    have : ds.filter (fun v => decide (length3 v < c)) = ds.filter (fun v => decide (length3 v < d)) := by
      apply List.filter_congr
      intro v hm
      rw [decide_eq_decide]
      rcases hap v hm with h3 | h3
      · exact ⟨fun _ => h3.trans_le (by norm_num; linarith), fun _ => h3.trans_le h1⟩
      · exact ⟨fun h4 => absurd h4 (not_lt.2 (h2.trans h3)), fun h4 => absurd h4 (not_lt.2 (le_trans (by
          norm_num; linarith) h3))⟩
    congr 3
  obtain ⟨h1, h2⟩ := C130_partial hs hv hd
  rw [h _ le_rfl (by norm_num; linarith)] at h1
  rw [h _ (by norm_num; linarith) le_rfl] at h2
  exact le_antisymm h2 h1

/-- Two molecules, of which one has moved further than the distance 1. -/
example : (∀ v ∈ [((1 / 2, 0, 0) : V3), (2, 0, 0)], Visible v) ∧
    ∀ v ∈ [((1 / 2, 0, 0) : V3), (2, 0, 0)],
      length3 v < 1 * (1 - 1 / 2 ^ 21) ∨ 1 * (1 + 1 / 2 ^ 21) ≤ length3 v := by
  have e (x : ℝ) (hx : 0 ≤ x) : length3 (x, 0, 0) = x := by
    unfold length3
    simp [Real.sqrt_sq hx]
  refine ⟨?_, ?_⟩
  · intro v hv
    simp only [List.mem_cons, List.not_mem_nil, or_false] at hv
    rcases hv with rfl | rfl
    · refine ⟨.inr ?_, .inl rfl, .inl rfl⟩; norm_num [abs_of_pos]
    · refine ⟨.inr ?_, .inl rfl, .inl rfl⟩; norm_num [abs_of_pos]
  · intro v hv
    simp only [List.mem_cons, List.not_mem_nil, or_false] at hv
    rcases hv with rfl | rfl
    · left; rw [e _ (by norm_num)]; norm_num
    · right; rw [e _ (by norm_num)]; norm_num

/-- **C130** is false: a molecule that has moved by 1/2 has moved less than 1/2 + 2^-40, but this is 1/2 in
float32. -/
theorem C130_refuted : ¬ CountsExactly := by
  classical
  intro h
  have hfd : float32.fl (1 / 2 + 1 / 2 ^ 40) = 1 / 2 := by
    have := fl_eval float32 (x := 1 / 2 + 1 / 2 ^ 40) (k := -1) (e := -24) (n := 8388608) (by norm_num)
      (by norm_num) (by decide) (by
        have e : (2 : ℝ) ^ (-24 : ℤ) = 1 / 16777216 := by norm_num
        rw [e, abs_lt]
        constructor <;> norm_num)
    rw [this]
    norm_num
  have num (k : ℤ) (hk : -149 ≤ k) : float32.fl (2 ^ k) = 2 ^ k :=
    fl_exact float32 (by decide) ⟨1, k, by decide, hk, by simp⟩
  have q : float32.fl (1 / 4) = 1 / 4 := by
    have := num (-2) (by decide)
    rwa [show (2 : ℝ) ^ (-2 : ℤ) = 1 / 4 by norm_num] at this
  have hf : float32.fl (1 / 2) = 1 / 2 := by
    have := num (-1) (by decide)
    rwa [show (2 : ℝ) ^ (-1 : ℤ) = 1 / 2 by norm_num] at this
  have s1 : square32 (1 / 2) = 1 / 4 := by
    unfold square32
    rw [show (1 / 2 : ℝ) * (1 / 2) = 1 / 4 by norm_num, q]
  have s0 : square32 0 = 0 := by unfold square32; rw [mul_zero, fl_zero]
  have hn : norm32 sumLeft (1 / 2, 0, 0) = 1 / 2 := by
    unfold norm32 sq32
    simp only [sumLeft, List.foldl, s1, s0, add_zero, q]
    rw [show (1 / 4 : ℝ) = (1 / 2) ^ 2 by norm_num, Real.sqrt_sq (by norm_num), hf]
  have hl : length3 ((1 / 2, 0, 0) : V3) = 1 / 2 := by
    unfold length3
    simp only [ne_eq, OfNat.ofNat_ne_zero, not_false_eq_true, zero_pow, add_zero]
    exact Real.sqrt_sq (by norm_num)
  have hd : (2 : ℝ) ^ (-126 : ℤ) ≤ 1 / 2 + 1 / 2 ^ 40 := by
    have : (2 : ℝ) ^ (-126 : ℤ) ≤ 2 ^ (-1 : ℤ) := two_zpow_le (by norm_num)
    refine this.trans ?_
    norm_num
  have := h sumLeft sumLeft_sum [((1 / 2, 0, 0) : V3)] (1 / 2 + 1 / 2 ^ 40) (by simp) (by
    intro v hv
    simp only [List.mem_cons, List.not_mem_nil, or_false] at hv
    subst hv
    refine ⟨.inr ?_, .inl rfl, .inl rfl⟩
    norm_num [abs_of_pos]) hd ⟨2 ^ 39 + 1, -40, by decide, by decide, by norm_num⟩
  unfold comStruct32 shorter at this
  rw [hfd] at this
  simp only [List.map_cons, List.map_nil, hn] at this
  rw [List.filter_cons_of_neg (by simp), List.filter_cons_of_pos (by rw [hl]; norm_num)] at this
  simp only [List.filter_nil, List.length_nil, List.length_cons] at this
  norm_num [fl_zero] at this
  have h1 := fl64_whole (m := 1) (by decide)
  norm_num at h1
  rw [h1] at this
  norm_num at this

/-! ## C131 -/

/-- **C131, `rot1`**: with a cosine that is right up to `δ`, and rotations by at most `Θ`. -/
theorem C131_rot1 (hs : IsSum sum) {δ Θ : ℝ} {cos32 : ℝ → ℝ} (hc : IsCos δ cos32) (hδ : δ ≤ 1 / 16)
    (hΘ : Θ ≤ 2 ^ 16) {rs : List V3} (hne : rs ≠ []) (hn : rs.length ≤ 2 ^ 20) (hr : ∀ v ∈ rs, length3 v ≤ Θ) :
    |rot1F sum cos32 rs - average rs (fun v => Real.cos (length3 v))| ≤
      δ + (4 * Θ + 2 * rs.length + 1) / 2 ^ 23 := by
  have := mean32_error hs (f := fun v => cos32 (norm32 sum v)) (g := fun v => Real.cos (length3 v))
    (ε := δ + (4 * Θ + 1) / 8388608) (by norm_num at hΘ; linarith) hne hn (fun v _ => Real.abs_cos_le_one _)
    (fun v hm => cos_error hs hc (hr v hm))
  unfold rot1F
  refine this.trans (le_of_eq ?_)
  norm_num
  ring

/-- **C131, `rot2`**. -/
theorem C131_rot2 (hs : IsSum sum) {δ Θ : ℝ} {cos32 : ℝ → ℝ} (hc : IsCos δ cos32) (hδ : δ ≤ 1 / 16)
    (hΘ : Θ ≤ 2 ^ 16) {rs : List V3} (hne : rs ≠ []) (hn : rs.length ≤ 2 ^ 20) (hr : ∀ v ∈ rs, length3 v ≤ Θ) :
    |rot2F sum cos32 rs - average rs (fun v => Real.cos (2 * length3 v))| ≤
      5 * δ + (20 * Θ + 2 * rs.length + 13) / 2 ^ 23 := by
  have hε : δ + (4 * Θ + 1) / 8388608 ≤ 1 / 8 := by norm_num at hΘ; linarith
  have := mean32_error hs (f := fun v => double32 (cos32 (norm32 sum v)))
    (g := fun v => Real.cos (2 * length3 v))
    (ε := 5 * (δ + (4 * Θ + 1) / 8388608) + 1 / 1048576) (by linarith) hne hn (fun v _ => Real.abs_cos_le_one _)
    (fun v hm => by
      rw [Real.cos_two_mul]
      exact cos2_error (Real.abs_cos_le_one _) hε (cos_error hs hc (hr v hm)))
  unfold rot2F
  refine this.trans (le_of_eq ?_)
  norm_num
  ring

/-- A correctly rounded cosine is right up to 2^-23; a rotation by 2 radians. -/
example : IsCos (1 / 2 ^ 23) (fun x => float32.fl (Real.cos x)) ∧ (1 / 2 ^ 23 : ℝ) ≤ 1 / 16 ∧
    length3 ((2, 0, 0) : V3) ≤ 2 := by
  refine ⟨?_, by norm_num, by
    unfold length3
    simp only [ne_eq, OfNat.ofNat_ne_zero, not_false_eq_true, zero_pow, add_zero]
    rw [Real.sqrt_sq (by norm_num)]⟩
  intro x _
  have h := fl_rel float32 (Real.cos x)
  rw [show -((float32.digits : ℕ) : ℤ) = -24 from rfl, show float32.emin - 1 = -150 from rfl,
    show (2 : ℝ) ^ (-24 : ℤ) = 1 / 16777216 by norm_num] at h
  have t3 : (2 : ℝ) ^ (-150 : ℤ) ≤ 1 / 268435456 := by
    have : (2 : ℝ) ^ (-150 : ℤ) ≤ 2 ^ (-28 : ℤ) := two_zpow_le (by norm_num)
    exact this.trans (by norm_num)
  have := Real.abs_cos_le_one x
  norm_num
  linarith

end Verif.Rounding
