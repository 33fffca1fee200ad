import Verif.Rounding.RotLemmas
import Verif.Rounding.RotSpec
/-!
# Lemmas on the rotation followed with float32
-/

namespace Verif.Rounding

open Quaternion Verif.Motion

theorem Near.planar {ε θ : ℝ} {q : Quat} (h : Near ε q θ) : Planar q := ⟨h.1, h.2.1⟩

theorem Near.toC {ε θ : ℝ} {q : Quat} (hε : 0 ≤ ε) (h : Near ε q θ) :
    ∃ σ : ℝ, (σ = 1 ∨ σ = -1) ∧ ‖toC q - σ * Complex.exp ((θ / 2 : ℝ) * Complex.I)‖ ≤ ε := by
  obtain ⟨-, -, σ, hσ, h⟩ := h
  refine ⟨σ, hσ, ?_⟩
  rw [← Real.sqrt_sq hε, Complex.norm_def]
  apply Real.sqrt_le_sqrt
  rw [Complex.normSq_apply]
  have e1 : (Rounding.toC q - σ * Complex.exp ((θ / 2 : ℝ) * Complex.I)).re = q.re - σ * Real.cos (θ / 2) := by
    rw [Complex.sub_re, Complex.re_ofReal_mul, Complex.exp_ofReal_mul_I_re]; rfl
  have e2 : (Rounding.toC q - σ * Complex.exp ((θ / 2 : ℝ) * Complex.I)).im = q.imK - σ * Real.sin (θ / 2) := by
    rw [Complex.sub_im, Complex.im_ofReal_mul, Complex.exp_ofReal_mul_I_im]; rfl
  rw [e1, e2]
  nlinarith

/-- The quotient of two stored orientations. -/
theorem quotient_near {ε θ θ' : ℝ} {p q : Quat} (hε : 0 ≤ ε) (hε' : ε ≤ 1 / 1000) (hp : Near ε p θ)
    (hq : Near ε q θ') : toC (q * p⁻¹) ≠ 0 ∧ |‖toC (q * p⁻¹)‖ - 1| ≤ 3 * ε ∧
      ‖toC (q * p⁻¹) ^ 2 - Complex.exp ((θ' - θ : ℝ) * Complex.I)‖ ≤ 5 * ε := by
  obtain ⟨σ, hσ, h1⟩ := hp.toC hε
  obtain ⟨τ, hτ, h2⟩ := hq.toC hε
  rw [(planar_div hq.planar hp.planar).2]
  set P := toC p with hP
  set Q := toC q with hQ
  have hn (x : ℝ) : ‖Complex.exp ((x : ℝ) * Complex.I)‖ = 1 := Complex.norm_exp_ofReal_mul_I x
  have hs (s : ℝ) (h : s = 1 ∨ s = -1) (x : ℝ) : ‖(s : ℂ) * Complex.exp ((x : ℝ) * Complex.I)‖ = 1 := by
    rw [norm_mul, hn, mul_one]
    rcases h with rfl | rfl <;> simp
  have hPn : 1 - ε ≤ ‖P‖ := by
    have := norm_sub_norm_le (σ * Complex.exp ((θ / 2 : ℝ) * Complex.I)) P
    rw [hs σ hσ, norm_sub_rev] at this
    linarith
  have hQn : 1 - ε ≤ ‖Q‖ := by
    have := norm_sub_norm_le (τ * Complex.exp ((θ' / 2 : ℝ) * Complex.I)) Q
    rw [hs τ hτ, norm_sub_rev] at this
    linarith
  have hP0 : P ≠ 0 := by
    rw [← norm_pos_iff]; linarith
  have hQ0 : Q ≠ 0 := by
    rw [← norm_pos_iff]; linarith
  -- the quotient without errors
  set u : ℂ := (σ * τ : ℝ) * Complex.exp (((θ' - θ) / 2 : ℝ) * Complex.I) with hu
  have hστ : σ * τ = 1 ∨ σ * τ = -1 := by
    rcases hσ with rfl | rfl <;> rcases hτ with rfl | rfl <;> simp
  have hun : ‖u‖ = 1 := hs _ hστ _
  have hσ2 : (σ : ℂ) * σ = 1 := by rcases hσ with rfl | rfl <;> simp
  have hup : u * (σ * Complex.exp ((θ / 2 : ℝ) * Complex.I)) =
      τ * Complex.exp ((θ' / 2 : ℝ) * Complex.I) := by
    rw [hu]
    have e : Complex.exp (((θ' - θ) / 2 : ℝ) * Complex.I) * Complex.exp ((θ / 2 : ℝ) * Complex.I) =
        Complex.exp ((θ' / 2 : ℝ) * Complex.I) := by
      rw [← Complex.exp_add]; congr 1; push_cast; ring
    rw [← e]
    push_cast
    linear_combination (τ : ℂ) * Complex.exp (((θ' : ℂ) - θ) / 2 * Complex.I) *
      Complex.exp ((θ : ℂ) / 2 * Complex.I) * hσ2
  have hu2 : u ^ 2 = Complex.exp ((θ' - θ : ℝ) * Complex.I) := by
    have e : Complex.exp ((θ' - θ : ℝ) * Complex.I) =
        Complex.exp (((θ' - θ) / 2 : ℝ) * Complex.I) * Complex.exp (((θ' - θ) / 2 : ℝ) * Complex.I) := by
      rw [← Complex.exp_add]; congr 1; push_cast; ring
    have hs2 : ((σ * τ : ℝ) : ℂ) * ((σ * τ : ℝ) : ℂ) = 1 := by
      rcases hστ with h | h <;> rw [h] <;> simp
    rw [hu, e]
    linear_combination Complex.exp (((θ' - θ) / 2 : ℝ) * Complex.I) *
      Complex.exp (((θ' - θ) / 2 : ℝ) * Complex.I) * hs2
  have hd : ‖Q / P - u‖ ≤ 2.01 * ε := by
    have e : Q / P - u = (Q - u * P) / P := by field_simp
    have e2 : Q - u * P = (Q - τ * Complex.exp ((θ' / 2 : ℝ) * Complex.I)) -
        u * (P - σ * Complex.exp ((θ / 2 : ℝ) * Complex.I)) := by
      rw [mul_sub, hup]; ring
    have h3 : ‖Q - u * P‖ ≤ 2 * ε := by
      rw [e2]
      refine (norm_sub_le _ _).trans ?_
      rw [norm_mul, hun, one_mul]
      linarith
    rw [e, norm_div, div_le_iff₀ (by linarith)]
    nlinarith
  refine ⟨div_ne_zero hQ0 hP0, ?_, ?_⟩
  · have := (abs_norm_sub_norm_le (Q / P) u).trans hd
    rw [hun] at this
    linarith
  · rw [← hu2]
    have e : (Q / P) ^ 2 - u ^ 2 = (Q / P - u) * ((Q / P - u) + 2 * u) := by ring
    have h4 : ‖(Q / P - u) + 2 * u‖ ≤ 2.01 * ε + 2 := by
      refine (norm_add_le _ _).trans ?_
      rw [norm_mul, hun]
      simp only [Complex.norm_ofNat, mul_one]
      linarith
    rw [e, norm_mul]
    calc _ ≤ 2.01 * ε * (2.01 * ε + 2) := mul_le_mul hd h4 (norm_nonneg _) (by linarith)
      _ ≤ 5 * ε := by nlinarith

/-- The angle read off two stored orientations. -/
theorem euler_near {tol : Tolerance} (ht : tol.gimbal < 1) {ε θ θ' : ℝ} {p q : Quat} (hε : 0 ≤ ε)
    (hε' : ε ≤ 1 / 1000) (hp : Near ε p θ) (hq : Near ε q θ') (hΔ : |θ' - θ| + 10 * ε < Real.pi) :
    ∃ x, toEuler32 tol (q * p⁻¹) = (x, 0, 0) ∧ |x - (θ' - θ)| ≤ 10 * ε := by
  obtain ⟨h0, -, h2⟩ := quotient_near hε hε' hp hq
  refine ⟨_, toEuler32_planar ht (planar_div hq.planar hp.planar).1 h0, ?_⟩
  have hnear : ‖(⟨clip1 (toC (q * p⁻¹) ^ 2).re, clip1 (toC (q * p⁻¹) ^ 2).im⟩ : ℂ) -
      Complex.exp ((θ' - θ : ℝ) * Complex.I)‖ ≤ 5 * ε := by
    refine le_trans ?_ h2
    rw [Complex.norm_def, Complex.norm_def]
    apply Real.sqrt_le_sqrt
    rw [Complex.normSq_apply, Complex.normSq_apply]
    simp only [Complex.sub_re, Complex.sub_im, Complex.exp_ofReal_mul_I_re, Complex.exp_ofReal_mul_I_im]
    have a1 := clip1_near (x := (toC (q * p⁻¹) ^ 2).re) (Real.abs_cos_le_one (θ' - θ))
    have a2 := clip1_near (x := (toC (q * p⁻¹) ^ 2).im) (Real.abs_sin_le_one (θ' - θ))
    have b1 := sq_le_sq.2 a1
    have b2 := sq_le_sq.2 a2
    nlinarith
  have := arg_near hnear (by linarith) (by linarith)
  linarith

/-- The rotations after `n` further frames. -/
noncomputable def rot32 {N : ℕ} (tol : Tolerance) (o : ℕ → Fin N → Quat) : ℕ → Fin N → V3
  | 0, _ => 0
  | n + 1, m => fl3 (rot32 tol o n m + toEuler32 tol (o (n + 1) m * (o n m)⁻¹))

theorem rotAdd32_ofFn {N : ℕ} (tol : Tolerance) (dR : Fin N → V3) (o o' : Fin N → Quat)
    (h : ∀ m, |Real.sqrt (normSq (o' m * (o m)⁻¹)) - 1| ≤ tol.unit) :
    rotAdd32 tol (List.ofFn dR) (List.ofFn o) (List.ofFn o') =
      .ok (List.ofFn (fun m => fl3 (dR m + toEuler32 tol (o' m * (o m)⁻¹)))) := by
  unfold rotAdd32
  rw [bcast_ofFn]
  have hall : ∀ q ∈ List.ofFn (fun m => o' m * (o m)⁻¹), |Real.sqrt (normSq q) - 1| ≤ tol.unit := by
    intro q hq
    obtain ⟨m, rfl⟩ := (List.mem_ofFn' _ _).1 hq
    exact h m
  simp only [toEulerAll32]
  rw [if_pos hall]
  simp only [map_ofFn', inplace_ofFn]

theorem turnLoop32_append (tol : Tolerance) (o : ℕ → List Quat) (d : List V3) (n : ℕ) :
    turnLoop32 tol d (o 0) ((List.range (n + 1)).map (fun i => o (i + 1))) =
      match turnLoop32 tol d (o 0) ((List.range n).map (fun i => o (i + 1))) with
      | .ok d' => rotAdd32 tol d' (o n) (o (n + 1))
      | .error e => .error e := by
  induction n generalizing o d with
  | zero =>
    simp only [zero_add, List.range_one, List.map_cons, List.map_nil, turnLoop32, List.range_zero]
    cases rotAdd32 tol d (o 0) (o 1) <;> rfl
  | succ n ih =>
    have hr (k : ℕ) : (List.range (k + 1)).map (fun i => o (i + 1)) =
        o 1 :: (List.range k).map (fun i => o (i + 1 + 1)) := by
      rw [List.range_succ_eq_map, List.map_cons, List.map_map]; rfl
    rw [hr, hr]
    simp only [turnLoop32]
    cases h : rotAdd32 tol d (o 0) (o 1) with
    | error e => rfl
    | ok d' => exact ih (fun i => o (i + 1)) d'

theorem turn32_closed {N : ℕ} (tol : Tolerance) (o : ℕ → Fin N → Quat) (n : ℕ)
    (h : ∀ i < n, ∀ m, |Real.sqrt (normSq (o (i + 1) m * (o i m)⁻¹)) - 1| ≤ tol.unit) :
    turn32 tol (List.ofFn (o 0)) ((List.range n).map (fun i => List.ofFn (o (i + 1)))) =
      .ok (List.ofFn (rot32 tol o n)) := by
  unfold turn32
  have h0 : (List.ofFn (o 0)).map (fun _ => (0 : V3)) = List.ofFn (rot32 tol o 0) := by
    rw [map_ofFn']; rfl
  rw [h0]
  induction n with
  | zero => rfl
  | succ n ih =>
    have := turnLoop32_append tol (fun i => List.ofFn (o i)) (List.ofFn (rot32 tol o 0)) n
    rw [this, ih (fun i hi => h i (by omega))]
    exact rotAdd32_ofFn tol _ _ _ (h n (by omega))

/-- The rounded quaternion of a rotation about z. -/
theorem flQ_near (θ : ℝ) {σ : ℝ} (hσ : σ = 1 ∨ σ = -1) : Near (2 ^ (-23 : ℤ)) (flQ (σ • zRot θ)) θ := by
  have hfl (x : ℝ) (hx : |x| ≤ 1) : |float32.fl x - x| ≤ 2 ^ (-24 : ℤ) + 2 ^ (-150 : ℤ) := by
    have h := fl_rel float32 x
    rw [show -((float32.digits : ℕ) : ℤ) = -24 from rfl, show float32.emin - 1 = -150 from rfl] at h
    have : (0 : ℝ) < 2 ^ (-24 : ℤ) := zpow_pos (by norm_num) _
    nlinarith
  have hsm : (2 : ℝ) ^ (-24 : ℤ) + 2 ^ (-150 : ℤ) ≤ 1.01 * 2 ^ (-24 : ℤ) := by norm_num
  have hone : |σ| = 1 := by rcases hσ with rfl | rfl <;> simp
  have hc : |σ * Real.cos (θ / 2)| ≤ 1 := by
    rw [abs_mul, hone, one_mul]; exact Real.abs_cos_le_one _
  have hs : |σ * Real.sin (θ / 2)| ≤ 1 := by
    rw [abs_mul, hone, one_mul]; exact Real.abs_sin_le_one _
  have h1 := (hfl _ hc).trans hsm
  have h2 := (hfl _ hs).trans hsm
  refine ⟨?_, ?_, σ, hσ, ?_⟩
  · change float32.fl (σ * 0) = 0
    rw [mul_zero, fl_zero]
  · change float32.fl (σ * 0) = 0
    rw [mul_zero, fl_zero]
  · have e1 : (flQ (σ • zRot θ)).re = float32.fl (σ * Real.cos (θ / 2)) := rfl
    have e2 : (flQ (σ • zRot θ)).imK = float32.fl (σ * Real.sin (θ / 2)) := rfl
    rw [e1, e2]
    have b1 := sq_le_sq' (by linarith [abs_le.1 h1]) (abs_le.1 h1).2
    have b2 := sq_le_sq' (by linarith [abs_le.1 h2]) (abs_le.1 h2).2
    have e : (2 : ℝ) ^ (-23 : ℤ) = 2 * 2 ^ (-24 : ℤ) := by norm_num
    rw [e]
    nlinarith [sq_nonneg ((2 : ℝ) ^ (-24 : ℤ))]

end Verif.Rounding
