import Verif.Rounding.PassLemmas
import Verif.Rounding.TrackProps
import Verif.Rounding.RotProps
import Verif.Rounding.TrackExample
/-!
# C134: relaxation times of molecules in single precision
-/

namespace Verif.Rounding

open Verif.Motion Verif.Relax

variable {sum : List ℝ → ℝ}

/-- **C134, the property as stated**, for motions without any error but that of the comparison: the time stored for
a molecule is the first at which it is further than the threshold from its start. -/
def ExactTimes : Prop :=
  ∀ sum, IsSum sum → ∀ (c : Cell) (wrap : V3 → V3) (N : ℕ) (u s : ℕ → Fin N → V3) (n : ℕ) (t : ℕ → ℤ) (thr : ℝ),
    1 / 2 ^ 40 ≤ thr → float64.Number thr →
    (∀ i m, wrap (fl3 (s i m - s (i + 1) m)) = -c.flat (u (i + 1) m - u i m)) →
    ∃ l, pass32 sum (transAdd32 wrap) (.first (First.new N (some thr) .translation)) (List.ofFn (s 0))
        ((List.range n).map (fun i => (t (i + 1), List.ofFn (s (i + 1))))) = .ok l ∧
      ∀ m : Fin N, ∃ x, l[(m : ℕ)]? = some x ∧
        FirstTime n t (fun i => length3 (c.flat (u i m - u 0 m))) thr x

/-- The error of the displacements grows with the number of frames. -/
theorem track_errors (c : Cell) (wrap : V3 → V3) {N : ℕ} (u s : ℕ → Fin N → V3) (n : ℕ) {ε B η : ℝ}
    (hwrap : ∀ i < n, ∀ m, Within ε (wrap (fl3 (s i m - s (i + 1) m)) + c.flat (u (i + 1) m - u i m)))
    (hB : ∀ i ≤ n, ∀ m, Within B (c.flat (u i m - u 0 m))) (hε : 0 ≤ ε) (hB0 : 0 ≤ B)
    (hη : η = n * (1 + 2 ^ (-24 : ℤ)) ^ n * (ε + (2 ^ (-24 : ℤ) * B + 2 ^ (-150 : ℤ)))) :
    ∀ i ≤ n, ∀ m, |length3 (disp32 wrap s i m) - length3 (c.flat (u i m - u 0 m))| ≤ 2 * η := by
  intro i hi m
  obtain ⟨d, hd, herr⟩ := C116_error_partial c wrap u s i (fun j hj => hwrap j (by omega))
    (fun j hj => hB j (by omega)) hε hB0
  rw [track32_closed] at hd
  have hd' := List.ofFn_injective (Except.ok.inj hd)
  subst hd'
  refine (length3_sub _ _).trans ((length3_within (herr m)).trans ?_)
  have hu : (0 : ℝ) < 2 ^ (-24 : ℤ) := zpow_pos (by norm_num) _
  have hu' : (0 : ℝ) < 2 ^ (-150 : ℤ) := zpow_pos (by norm_num) _
  have h1 : (i : ℝ) ≤ n := by exact_mod_cast hi
  have h2 : (1 + 2 ^ (-24 : ℤ) : ℝ) ^ i ≤ (1 + 2 ^ (-24 : ℤ)) ^ n := pow_le_pow_right₀ (by linarith) hi
  have h3 : (0 : ℝ) ≤ ε + (2 ^ (-24 : ℤ) * B + 2 ^ (-150 : ℤ)) := by
    have := mul_nonneg hu.le hB0
    linarith
  rw [hη]
  apply mul_le_mul_of_nonneg_left _ (by norm_num)
  apply mul_le_mul_of_nonneg_right _ h3
  exact mul_le_mul h1 h2 (by positivity) (by positivity)

/-- The error of the angles. -/
theorem turn_errors (tol : Tolerance) (hgim : tol.gimbal < 1) (hunit : 3 * 2 ^ (-23 : ℤ) ≤ tol.unit) {N : ℕ}
    (θ σ : ℕ → Fin N → ℝ) (n : ℕ) {B η : ℝ} (hσ : ∀ i ≤ n, ∀ m, σ i m = 1 ∨ σ i m = -1)
    (hstep : ∀ i < n, ∀ m, |θ (i + 1) m - θ i m| + 10 * 2 ^ (-23 : ℤ) < Real.pi)
    (hB0 : 0 ≤ B) (hB : ∀ i ≤ n, ∀ m, |θ i m - θ 0 m| ≤ B)
    (hη : η = n * (1 + 2 ^ (-24 : ℤ)) ^ n * (10 * 2 ^ (-23 : ℤ) + (2 ^ (-24 : ℤ) * B + 2 ^ (-150 : ℤ)))) :
    (∀ i < n, rotAdd32 tol (List.ofFn (rot32 tol (fun i m => flQ (σ i m • zRot (θ i m))) i))
        (List.ofFn (fun m => flQ (σ i m • zRot (θ i m)))) (List.ofFn (fun m => flQ (σ (i + 1) m • zRot (θ (i + 1) m)))) =
      .ok (List.ofFn (rot32 tol (fun i m => flQ (σ i m • zRot (θ i m))) (i + 1)))) ∧
    ∀ i ≤ n, ∀ m, |length3 (rot32 tol (fun i m => flQ (σ i m • zRot (θ i m))) i m) - abs (θ i m - θ 0 m)| ≤ η := by
  have hε : (0 : ℝ) ≤ 2 ^ (-23 : ℤ) := (zpow_pos (by norm_num) _).le
  have hunits : ∀ i < n, ∀ m, |Real.sqrt (Quaternion.normSq (flQ (σ (i + 1) m • zRot (θ (i + 1) m)) *
      (flQ (σ i m • zRot (θ i m)))⁻¹)) - 1| ≤ tol.unit := by
    intro i hi m
    have n1 := flQ_near (θ i m) (hσ i (by omega) m)
    have n2 := flQ_near (θ (i + 1) m) (hσ (i + 1) (by omega) m)
    rw [planar_norm (planar_div n2.planar n1.planar).1]
    exact ((quotient_near hε (by norm_num) n1 n2).2.1).trans hunit
  refine ⟨fun i hi => rotAdd32_ofFn tol _ _ _ (hunits i hi), fun i hi m => ?_⟩
  obtain ⟨x, hx, herr⟩ := C118_stored tol hgim hunit θ σ i (fun j hj => hσ j (by omega))
    (fun j hj => hstep j (by omega)) hB0 (fun j hj => hB j (by omega))
  rw [turn32_closed tol (fun i m => flQ (σ i m • zRot (θ i m))) i (fun j hj => hunits j (by omega))] at hx
  have hx' := congrFun (List.ofFn_injective (Except.ok.inj hx)) m
  rw [hx']
  have hlen (y : ℝ) : length3 (y, 0, 0) = |y| := by
    unfold length3
    simp [Real.sqrt_sq_eq_abs]
  rw [hlen]
  refine (abs_abs_sub_abs_le _ _).trans ((herr m).trans ?_)
  have hu : (0 : ℝ) < 2 ^ (-24 : ℤ) := zpow_pos (by norm_num) _
  have hu' : (0 : ℝ) < 2 ^ (-150 : ℤ) := zpow_pos (by norm_num) _
  have h1 : (i : ℝ) ≤ n := by exact_mod_cast hi
  have h2 : (1 + 2 ^ (-24 : ℤ) : ℝ) ^ i ≤ (1 + 2 ^ (-24 : ℤ)) ^ n := pow_le_pow_right₀ (by linarith) hi
  have h3 : (0 : ℝ) ≤ 10 * 2 ^ (-23 : ℤ) + (2 ^ (-24 : ℤ) * B + 2 ^ (-150 : ℤ)) := by
    have := mul_nonneg hu.le hB0
    linarith
  rw [hη]
  apply mul_le_mul_of_nonneg_right _ h3
  exact mul_le_mul h1 h2 (by positivity) (by positivity)

/-- **C134**, what holds of `tau_D`, `tau_F` and other first passages: the time stored is that of the true motion for
the threshold up to one part in 2^20 and twice the error of a component (C116).  Full statement (false, see
`C134_refuted`): it is that for the threshold itself. -/
theorem C134_first_partial (hs : IsSum sum) (c : Cell) (wrap : V3 → V3) {N : ℕ} (u s : ℕ → Fin N → V3) (n : ℕ)
    (t : ℕ → ℤ) {ε B η thr : ℝ}
    (hwrap : ∀ i < n, ∀ m, Within ε (wrap (fl3 (s i m - s (i + 1) m)) + c.flat (u (i + 1) m - u i m)))
    (hB : ∀ i ≤ n, ∀ m, Within B (c.flat (u i m - u 0 m))) (hε : 0 ≤ ε) (hB0 : 0 ≤ B)
    (hη : η = n * (1 + 2 ^ (-24 : ℤ)) ^ n * (ε + (2 ^ (-24 : ℤ) * B + 2 ^ (-150 : ℤ))))
    (hthr : 1 / 2 ^ 40 ≤ thr) :
    ∃ l, pass32 sum (transAdd32 wrap) (.first (First.new N (some thr) .translation)) (List.ofFn (s 0))
        ((List.range n).map (fun i => (t (i + 1), List.ofFn (s (i + 1))))) = .ok l ∧
      l.length = N ∧ ∀ m : Fin N, ∃ x, l[(m : ℕ)]? = some x ∧
        FirstTimeUpTo n t (fun i => length3 (c.flat (u i m - u 0 m))) thr (2 * η) x :=
  pass_first hs (transAdd32 wrap) s (disp32 wrap s) n t .translation rfl (fun i _ => transAdd32_ofFn wrap _ _ _)
    (fun i m => length3 (c.flat (u i m - u 0 m))) (by rw [hη]; positivity) hthr
    (track_errors c wrap u s n hwrap hB hε hB0 hη)

/-- **C134**, what holds of `tau_L`: the time stored is that of the true motion if at no frame the displacement is
that near to the threshold or the cutoff. -/
theorem C134_last_partial (hs : IsSum sum) (c : Cell) (wrap : V3 → V3) {N : ℕ} (u s : ℕ → Fin N → V3) (n : ℕ)
    (t : ℕ → ℤ) {ε B η thr cut : ℝ}
    (hwrap : ∀ i < n, ∀ m, Within ε (wrap (fl3 (s i m - s (i + 1) m)) + c.flat (u (i + 1) m - u i m)))
    (hB : ∀ i ≤ n, ∀ m, Within B (c.flat (u i m - u 0 m))) (hε : 0 ≤ ε) (hB0 : 0 ≤ B)
    (hη : η = n * (1 + 2 ^ (-24 : ℤ)) ^ n * (ε + (2 ^ (-24 : ℤ) * B + 2 ^ (-150 : ℤ))))
    (hthr : 1 / 2 ^ 40 ≤ thr) (hcut : 1 / 2 ^ 40 ≤ cut) :
    ∃ l, pass32 sum (transAdd32 wrap) (.last (Last.new N (some thr) (some cut) .translation)) (List.ofFn (s 0))
        ((List.range n).map (fun i => (t (i + 1), List.ofFn (s (i + 1))))) = .ok l ∧
      l.length = N ∧ ∀ m : Fin N, ∃ x, l[(m : ℕ)]? = some x ∧
        (Apart n (fun i => length3 (c.flat (u i m - u 0 m))) thr (2 * η) →
         Apart n (fun i => length3 (c.flat (u i m - u 0 m))) cut (2 * η) →
          LastTime n t (fun i => length3 (c.flat (u i m - u 0 m))) thr cut x) :=
  pass_last hs (transAdd32 wrap) s (disp32 wrap s) n t .translation rfl (fun i _ => transAdd32_ofFn wrap _ _ _)
    (fun i m => length3 (c.flat (u i m - u 0 m))) (by rw [hη]; positivity) hthr hcut
    (track_errors c wrap u s n hwrap hB hε hB0 hη)

/-- **C134**, what holds of `tau_T2`, `tau_T3`, `tau_T4` and other first passages of the angle, with the error of
C118. -/
theorem C134_rotation_partial (hs : IsSum sum) (tol : Tolerance) (hgim : tol.gimbal < 1)
    (hunit : 3 * 2 ^ (-23 : ℤ) ≤ tol.unit) {N : ℕ} (θ σ : ℕ → Fin N → ℝ) (n : ℕ) (t : ℕ → ℤ) {B η thr : ℝ}
    (hσ : ∀ i ≤ n, ∀ m, σ i m = 1 ∨ σ i m = -1)
    (hstep : ∀ i < n, ∀ m, |θ (i + 1) m - θ i m| + 10 * 2 ^ (-23 : ℤ) < Real.pi)
    (hB0 : 0 ≤ B) (hB : ∀ i ≤ n, ∀ m, |θ i m - θ 0 m| ≤ B)
    (hη : η = n * (1 + 2 ^ (-24 : ℤ)) ^ n * (10 * 2 ^ (-23 : ℤ) + (2 ^ (-24 : ℤ) * B + 2 ^ (-150 : ℤ))))
    (hthr : 1 / 2 ^ 40 ≤ thr) :
    ∃ l, pass32 sum (rotAdd32 tol) (.first (First.new N (some thr) .rotation))
        (List.ofFn (fun m => flQ (σ 0 m • zRot (θ 0 m))))
        ((List.range n).map (fun i => (t (i + 1), List.ofFn (fun m => flQ (σ (i + 1) m • zRot (θ (i + 1) m)))))) =
          .ok l ∧
      l.length = N ∧ ∀ m : Fin N, ∃ x, l[(m : ℕ)]? = some x ∧
        FirstTimeUpTo n t (fun i => |θ i m - θ 0 m|) thr η x := by
  obtain ⟨h1, h2⟩ := turn_errors tol hgim hunit θ σ n hσ hstep hB0 hB hη
  exact pass_first hs (rotAdd32 tol) (fun i m => flQ (σ i m • zRot (θ i m)))
    (rot32 tol (fun i m => flQ (σ i m • zRot (θ i m)))) n t .rotation rfl h1
    (fun i m => |θ i m - θ 0 m|) (by rw [hη]; positivity) hthr h2

/-- Steps of 1/2 along x. -/
noncomputable def halves (i : ℕ) (_ : Fin 1) : V3 := ((i : ℝ) / 2, 0, 0)

theorem halves_length (i : ℕ) (m : Fin 1) : length3 (square8.flat (halves i m - halves 0 m)) = (i : ℝ) / 2 := by
  have : square8.flat (halves i m - halves 0 m) = ((i : ℝ) / 2, 0, 0) := by
    simp [square8, Cell.flat, halves]
  rw [this]
  unfold length3
  simp only [ne_eq, OfNat.ofNat_ne_zero, not_false_eq_true, zero_pow, add_zero]
  exact Real.sqrt_sq (by positivity)

theorem halves_wrap (i : ℕ) (m : Fin 1) :
    fl3 (halves i m - halves (i + 1) m) + square8.flat (halves (i + 1) m - halves i m) = 0 := by
  have hf : float32.fl (1 / 2) = 1 / 2 := by
    have := fl_exact float32 (by decide) (x := 2 ^ (-1 : ℤ)) ⟨1, -1, by decide, by decide, by simp⟩
    rwa [show (2 : ℝ) ^ (-1 : ℤ) = 1 / 2 by norm_num] at this
  have e : halves i m - halves (i + 1) m = (-(1 / 2), 0, 0) := by
    simp only [halves, Prod.mk_sub_mk, sub_zero, Prod.mk.injEq, and_true]
    push_cast; ring
  have e' : halves (i + 1) m - halves i m = (1 / 2, 0, 0) := by
    rw [← neg_sub, e]; simp
  rw [e, e']
  simp only [fl3, fl_neg, hf, fl_zero, square8, Cell.flat]
  simp

theorem halves_error : (2 : ℝ) * ((2 : ℕ) * (1 + 2 ^ (-24 : ℤ)) ^ 2 * (0 + (2 ^ (-24 : ℤ) * 1 + 2 ^ (-150 : ℤ)))) ≤
    1 / 100 := by
  have t : (2 : ℝ) ^ (-150 : ℤ) ≤ 1 / 1000 := by
    have : (2 : ℝ) ^ (-150 : ℤ) ≤ 2 ^ (-10 : ℤ) := two_zpow_le (by norm_num)
    exact this.trans (by norm_num)
  have e : (2 : ℝ) ^ (-24 : ℤ) = 1 / 16777216 := by norm_num
  rw [e]
  generalize (2 : ℝ) ^ (-150 : ℤ) = s at t
  push_cast
  norm_num
  linarith

theorem halves_within (i : ℕ) (hi : i ≤ 2) (m : Fin 1) : Within 1 (square8.flat (halves i m - halves 0 m)) := by
  have : square8.flat (halves i m - halves 0 m) = ((i : ℝ) / 2, 0, 0) := by simp [square8, Cell.flat, halves]
  rw [this]
  have h : (i : ℝ) ≤ 2 := by exact_mod_cast hi
  refine ⟨?_, by simp, by simp⟩
  simp only
  rw [abs_of_nonneg (by positivity)]
  linarith

theorem halves_apart {d : ℝ} (hd : d = 2 / 5 ∨ d = 3 / 4) {h : ℝ} (hh : h ≤ 1 / 100) (m : Fin 1) :
    Apart 2 (fun i => length3 (square8.flat (halves i m - halves 0 m))) d h := by
  intro i h1 h2
  simp only [halves_length]
  have : i = 1 ∨ i = 2 := by omega
  rcases this with rfl | rfl <;> rcases hd with rfl | rfl
  · right; norm_num; linarith
  · left; norm_num; linarith
  · right; norm_num; linarith
  · right; norm_num; linarith

/-- A molecule that moves by 1/2 in each of two frames, stored and wrapped without error: with the threshold 2/5 the
time of the first is stored. -/
example (t : ℕ → ℤ) (ht : t 1 ≤ t 2) (ht' : t 1 ≤ 2 ^ 32 - 1) :
    ∃ l, pass32 sumLeft (transAdd32 id) (.first (First.new 1 (some (2 / 5)) .translation)) (List.ofFn (halves 0))
      ((List.range 2).map (fun i => (t (i + 1), List.ofFn (halves (i + 1))))) = .ok l ∧ l[0]? = some (t 1) := by
  obtain ⟨l, h1, -, h3⟩ := C134_first_partial sumLeft_sum square8 id halves halves 2 t (ε := 0) (B := 1)
    (thr := 2 / 5) (fun i _ m => by rw [id, halves_wrap]; exact ⟨by simp, by simp, by simp⟩)
    halves_within le_rfl zero_le_one rfl (by norm_num)
  obtain ⟨x, hx, -, -, hx'⟩ := h3 0
  refine ⟨l, h1, ?_⟩
  have := hx' (halves_apart (.inl rfl) halves_error 0)
  have e : x = t 1 := by
    apply this.unique
    refine ⟨.inr ⟨1, le_rfl, by omega, ?_, rfl⟩, ?_⟩
    · simp only [halves_length]; norm_num
    · rintro y (rfl | ⟨i, h1, h2, -, rfl⟩)
      · exact ht'
      · have : i = 1 ∨ i = 2 := by omega
        rcases this with rfl | rfl
        · exact le_rfl
        · exact ht
  rw [← e]
  exact hx

/-- The same with a cutoff of 3/4, which it passes at the second. -/
example (t : ℕ → ℤ) :
    ∃ l, pass32 sumLeft (transAdd32 id) (.last (Last.new 1 (some (2 / 5)) (some (3 / 4)) .translation))
      (List.ofFn (halves 0)) ((List.range 2).map (fun i => (t (i + 1), List.ofFn (halves (i + 1))))) = .ok l ∧
      ∃ x, l[0]? = some x ∧ LastTime 2 t (fun i => length3 (square8.flat (halves i 0 - halves 0 0))) (2 / 5) (3 / 4) x := by
  obtain ⟨l, h1, -, h3⟩ := C134_last_partial sumLeft_sum square8 id halves halves 2 t (ε := 0) (B := 1)
    (thr := 2 / 5) (cut := 3 / 4) (fun i _ m => by rw [id, halves_wrap]; exact ⟨by simp, by simp, by simp⟩)
    halves_within le_rfl zero_le_one rfl (by norm_num) (by norm_num)
  obtain ⟨x, hx, hx'⟩ := h3 0
  exact ⟨l, h1, x, hx, hx' (halves_apart (.inl rfl) halves_error 0) (halves_apart (.inr rfl) halves_error 0)⟩

/-- Two turns of 1/2: the hypotheses on the angles. -/
example : (∀ i : ℕ, i < 2 → ∀ _ : Fin 1, |((i + 1 : ℕ) : ℝ) / 2 - (i : ℝ) / 2| + 10 * 2 ^ (-23 : ℤ) < Real.pi) ∧
    (∀ i : ℕ, i ≤ 2 → ∀ _ : Fin 1, |(i : ℝ) / 2 - ((0 : ℕ) : ℝ) / 2| ≤ 1) := by
  refine ⟨fun i _ _ => ?_, fun i hi _ => ?_⟩
  · have e : ((i + 1 : ℕ) : ℝ) / 2 - (i : ℝ) / 2 = 1 / 2 := by push_cast; ring
    rw [e, abs_of_pos (by norm_num)]
    have := Real.pi_gt_three
    norm_num
    linarith
  · have h : (i : ℝ) ≤ 2 := by exact_mod_cast hi
    have h0 : (0 : ℝ) ≤ i := Nat.cast_nonneg i
    rw [Nat.cast_zero, zero_div, sub_zero, abs_of_nonneg (by linarith)]
    linarith

/-- **C134** is false: a molecule that has moved by 1/2 has moved further than 1/2 - 2^-40, but this is 1/2 in
float32, and no time is stored. -/
theorem C134_refuted : ¬ ExactTimes := by
  intro h
  have hfd : float32.fl (1 / 2 - 1 / 2 ^ 40) = 1 / 2 := by
    have := fl_eval float32 (x := 1 / 2 - 1 / 2 ^ 40) (k := -2) (e := -25) (n := 16777216) (by norm_num)
      (by norm_num) (by decide) (by
        have e : (2 : ℝ) ^ (-25 : ℤ) = 1 / 33554432 := by norm_num
        rw [e, abs_lt]
        constructor <;> norm_num)
    rw [this]
    norm_num
  have num (k : ℤ) (hk : -149 ≤ k) : float32.fl (2 ^ k) = 2 ^ k :=
    fl_exact float32 (by decide) ⟨1, k, by decide, hk, by simp⟩
  have q : float32.fl (1 / 4) = 1 / 4 := by
    have := num (-2) (by decide)
    rwa [show (2 : ℝ) ^ (-2 : ℤ) = 1 / 4 by norm_num] at this
  have hf : float32.fl (1 / 2) = 1 / 2 := by
    have := num (-1) (by decide)
    rwa [show (2 : ℝ) ^ (-1 : ℤ) = 1 / 2 by norm_num] at this
  have s1 : square32 (1 / 2) = 1 / 4 := by
    unfold square32
    rw [show (1 / 2 : ℝ) * (1 / 2) = 1 / 4 by norm_num, q]
  have s0 : square32 0 = 0 := by unfold square32; rw [mul_zero, fl_zero]
  have hn : norm32 sumLeft (1 / 2, 0, 0) = 1 / 2 := by
    unfold norm32 sq32
    simp only [sumLeft, List.foldl, s1, s0, add_zero, q]
    rw [show (1 / 4 : ℝ) = (1 / 2) ^ 2 by norm_num, Real.sqrt_sq (by norm_num), hf]
  have hl : length3 ((1 / 2, 0, 0) : V3) = 1 / 2 := by
    unfold length3
    simp only [ne_eq, OfNat.ofNat_ne_zero, not_false_eq_true, zero_pow, add_zero]
    exact Real.sqrt_sq (by norm_num)
  set s : ℕ → Fin 1 → V3 := fun i _ => if i = 0 then 0 else (1 / 2, 0, 0) with hs
  have hneg : float32.fl (-(1 / 2)) = -(1 / 2) := by rw [fl_neg, hf]
  have hst : fl3 (s 0 0 - s 1 0) = (-(1 / 2), 0, 0) := by
    simp only [hs, fl3, if_true, one_ne_zero, if_false]
    rw [zero_sub]
    simp only [Prod.fst_neg, Prod.snd_neg, neg_zero, hneg, fl_zero]
  have hflat (x : ℝ) : square8.flat (x, 0, 0) = (x, 0, 0) := by simp [square8, Cell.flat]
  obtain ⟨l, hl1, hl2⟩ := h sumLeft sumLeft_sum square8 id 1 s s 1 (fun _ => 7) (1 / 2 - 1 / 2 ^ 40) (by norm_num)
    ⟨2 ^ 39 - 1, -40, by decide, by decide, by norm_num⟩ (by
      intro i m
      obtain rfl : m = 0 := Subsingleton.elim _ _
      rcases i with _ | i
      · rw [zero_add, id, hst]
        simp only [hs, if_true, one_ne_zero, if_false, sub_zero, hflat]
        simp
      · simp only [hs, Nat.add_eq_zero_iff, one_ne_zero, and_false, if_false, sub_self, id]
        rw [show (0 : V3) = (0, 0, 0) from rfl, hflat]
        simp [fl3, fl_zero])
  have hd : disp32 id s 1 0 = (1 / 2, 0, 0) := by
    simp only [disp32, zero_add]
    rw [id, hst]
    rw [zero_sub]
    simp only [fl3, Prod.fst_neg, Prod.snd_neg, neg_zero, neg_neg, hf, fl_zero]
  obtain ⟨l', h1, h2, h3⟩ := first_time 1 (fun _ => 7) (fun i m => norm32 sumLeft (disp32 id s i m))
    (float32.fl (1 / 2 - 1 / 2 ^ 40)) .translation
  have e : l' = l := by
    unfold pass32 at hl1
    rw [map_ofFn', show (List.ofFn fun _ : Fin 1 => (0 : V3)) = List.ofFn (disp32 id s 0) from rfl,
      passLoop32_run (transAdd32 id) (fun i => List.ofFn (s i)) (disp32 id s) 1 (fun _ => 7)
      (fun i _ => transAdd32_ofFn id _ _ _)] at hl1
    exact Except.ok.inj (h1.symm.trans hl1)
  subst e
  obtain ⟨x, hx1, hx2⟩ := h3 0
  obtain ⟨y, hy1, hy2⟩ := hl2 0
  obtain rfl : x = y := by rw [hx1] at hy1; exact Option.some.inj hy1
  have u1 : x ≤ 7 := hy2.2 (.inr ⟨1, le_refl _, le_refl _, by
    simp only [hs, one_ne_zero, if_false, if_true, sub_zero, hflat, hl]; norm_num, rfl⟩)
  rcases hx2.1 with h | ⟨i, i1, i2, i3, -⟩
  · omega
  · obtain rfl : i = 1 := by omega
    simp only [hd, hn, hfd, lt_irrefl] at i3

end Verif.Rounding
