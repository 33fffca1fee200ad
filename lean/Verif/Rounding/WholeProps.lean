import Verif.Rounding.WholeLemmas
import Verif.Rounding.TrackProps
import Verif.Rounding.RotProps
/-!
# C132 and C133: from the true motion to the averages, in single precision
-/

namespace Verif.Rounding

open Verif.Motion Verif.Dynamics

variable {sum : List ℝ → ℝ}

/-- The averages of displacements `d` that differ from `D` by at most `2 η` in length. -/
theorem averages_error (hs : IsSum sum) {N : ℕ} (hN0 : 0 < N) (hN : N ≤ 2 ^ 20) (d D : Fin N → V3) {h L : ℝ}
    (hd : ∀ m, |length3 (d m) - length3 (D m)| ≤ h) (hD : ∀ m, length3 (D m) ≤ L - 4 * h)
    (hL : 1 ≤ L) :
    |meanNorm32 sum (List.ofFn d) - average (List.finRange N) (fun m => length3 (D m))| ≤
      h + L * (N + 3) / 2 ^ 22 ∧
    |msd32 sum (List.ofFn d) - average (List.finRange N) (fun m => lenSq (D m))| ≤
      2 * h * L + L ^ 2 * (N + 2) / 2 ^ 22 := by
  have hne : List.finRange N ≠ [] := by
    intro h
    have := congrArg List.length h
    rw [List.length_finRange, List.length_nil] at this
    omega
  have hlen : (List.finRange N).length ≤ 2 ^ 20 := by rw [List.length_finRange]; exact hN
  have h0 : 0 ≤ h := (abs_nonneg _).trans (hd ⟨0, hN0⟩)
  have t72 : (2 : ℝ) ^ (-72 : ℤ) ≤ 1 / 4194304 := by
    have : (2 : ℝ) ^ (-72 : ℤ) ≤ 2 ^ (-22 : ℤ) := two_zpow_le (by norm_num)
    exact this.trans (by norm_num)
  have t147 : (2 : ℝ) ^ (-147 : ℤ) ≤ 1 / 4194304 := by
    have : (2 : ℝ) ^ (-147 : ℤ) ≤ 2 ^ (-22 : ℤ) := two_zpow_le (by norm_num)
    exact this.trans (by norm_num)
  have hlow (m : Fin N) : length3 (d m) ≤ L - 3 * h := by
    have := (abs_le.1 (hd m)).2
    have := hD m
    linarith
  have h4 : 4 * h ≤ L := by
    have := hD ⟨0, hN0⟩
    have := length3_nonneg (D ⟨0, hN0⟩)
    linarith
  constructor
  · have e1 (m : Fin N) : |norm32 sum (d m) - length3 (D m)| ≤ h + 3 * L / 4194304 := by
      have h1 := norm32_error hs (d m)
      have h2 := hd m
      have h3 := hlow m
      have h5 := length3_nonneg (d m)
      calc |norm32 sum (d m) - length3 (D m)| =
            |(norm32 sum (d m) - length3 (d m)) + (length3 (d m) - length3 (D m))| := by ring_nf
        _ ≤ _ := abs_add_le _ _
        _ ≤ _ := by linarith
    have := mean32_bound hs (G := L) (ε := h + 3 * L / 4194304) (f := fun m => norm32 sum (d m))
      (g := fun m => length3 (D m)) hL (by linarith) hne hlen
      (fun m _ => by
        rw [abs_of_nonneg (length3_nonneg _)]
        have := hD m
        linarith)
      (fun m _ => e1 m)
    rw [List.length_finRange] at this
    unfold meanNorm32
    rw [List.ofFn_eq_map, List.map_map]
    refine le_trans this (le_of_eq ?_)
    norm_num
    ring
  · have e1 (m : Fin N) : |sq32 sum (d m) - lenSq (D m)| ≤ 2 * h * L + 2 * L ^ 2 / 4194304 := by
      have h1 := (sq32_error hs (d m)).2
      have h2 := hd m
      have h3 := hlow m
      have h5 := length3_nonneg (d m)
      have h6 := length3_nonneg (D m)
      have h7 := hD m
      have q1 : lenSq (d m) = length3 (d m) ^ 2 := (Real.sq_sqrt (lenSq_nonneg _)).symm
      have q2 : lenSq (D m) = length3 (D m) ^ 2 := (Real.sq_sqrt (lenSq_nonneg _)).symm
      have q3 : lenSq (d m) ≤ L ^ 2 := by rw [q1]; exact pow_le_pow_left₀ h5 (by linarith) 2
      have q4 : |lenSq (d m) - lenSq (D m)| ≤ 2 * h * L := by
        rw [q1, q2, sq_sub_sq, abs_mul, abs_of_nonneg (show 0 ≤ length3 (d m) + length3 (D m) by linarith)]
        calc (length3 (d m) + length3 (D m)) * |length3 (d m) - length3 (D m)| ≤ (2 * L) * h :=
              mul_le_mul (by linarith) h2 (abs_nonneg _) (by linarith)
          _ = _ := by ring
      have q5 : 1 ≤ L ^ 2 := one_le_pow₀ hL
      calc |sq32 sum (d m) - lenSq (D m)| =
            |(sq32 sum (d m) - lenSq (d m)) + (lenSq (d m) - lenSq (D m))| := by ring_nf
        _ ≤ _ := abs_add_le _ _
        _ ≤ _ := by linarith
    have q5 : 1 ≤ L ^ 2 := one_le_pow₀ hL
    have := mean32_bound hs (G := L ^ 2) (ε := 2 * h * L + 2 * L ^ 2 / 4194304) (f := fun m => sq32 sum (d m))
      (g := fun m => lenSq (D m)) q5 (by nlinarith) hne hlen
      (fun m _ => by
        rw [abs_of_nonneg (lenSq_nonneg _)]
        have h7 := hD m
        have q2 : lenSq (D m) = length3 (D m) ^ 2 := (Real.sq_sqrt (lenSq_nonneg _)).symm
        rw [q2]
        exact pow_le_pow_left₀ (length3_nonneg _) (by linarith) 2)
      (fun m _ => e1 m)
    rw [List.length_finRange] at this
    unfold msd32
    rw [List.ofFn_eq_map, List.map_map]
    refine le_trans this (le_of_eq ?_)
    norm_num
    ring

open Classical in
/-- The proportion of molecules whose length is below a distance. -/
theorem near_share (hs : IsSum sum) {N : ℕ} (d D : Fin N → V3) {h dist : ℝ}
    (hd : ∀ m, |length3 (d m) - length3 (D m)| ≤ h) (hdist : 1 / 2 ^ 40 ≤ dist) :
    float64.fl (shorter (dist * (1 - 1 / 2 ^ 20) - h) (List.ofFn D)) ≤ comStruct32 sum dist (List.ofFn d) ∧
    comStruct32 sum dist (List.ofFn d) ≤ float64.fl (shorter (dist * (1 + 1 / 2 ^ 20) + h) (List.ofFn D)) := by
  have t72 : (2 : ℝ) ^ (-72 : ℤ) ≤ 1 / 2 ^ 23 * dist := by
    have h1 : (2 : ℝ) ^ (-72 : ℤ) ≤ 2 ^ (-63 : ℤ) := two_zpow_le (by norm_num)
    refine h1.trans ?_
    rw [show (-63 : ℤ) = -23 + -40 by norm_num, zpow_add₀ (by norm_num)]
    have : (2 : ℝ) ^ (-40 : ℤ) ≤ dist := by
      refine le_trans (le_of_eq ?_) hdist
      norm_num
    have e : (2 : ℝ) ^ (-23 : ℤ) = 1 / 2 ^ 23 := by norm_num
    rw [e]
    exact mul_le_mul_of_nonneg_left this (by norm_num)
  have hd0 : 0 < dist := lt_of_lt_of_le (by norm_num) hdist
  obtain ⟨b1, b2⟩ := abs_le.1 (fl32_dist (d := dist) (by
    refine le_trans ?_ hdist
    have h1 : (2 : ℝ) ^ (-126 : ℤ) ≤ 2 ^ (-40 : ℤ) := two_zpow_le (by norm_num)
    refine h1.trans (le_of_eq ?_)
    norm_num))
  have key (m : Fin N) :
      (length3 (D m) < dist * (1 - 1 / 2 ^ 20) - h → norm32 sum (d m) < float32.fl dist) ∧
      (norm32 sum (d m) < float32.fl dist → length3 (D m) < dist * (1 + 1 / 2 ^ 20) + h) := by
    obtain ⟨a1, a2⟩ := abs_le.1 (norm32_error hs (d m))
    obtain ⟨c1, c2⟩ := abs_le.1 (hd m)
    have hl := length3_nonneg (d m)
    generalize (2 : ℝ) ^ (-72 : ℤ) = t at *
    norm_num at *
    constructor
    · intro h
      nlinarith
    · intro h
      by_contra h'
      push Not at h'
      nlinarith
  have count (p : V3 → Bool) (w : Fin N → V3) :
      ((List.ofFn w).filter p).length = (List.finRange N).countP (fun m => p (w m)) := by
    rw [List.ofFn_eq_map, ← List.countP_eq_length_filter, List.countP_map]
    rfl
  have e : ((((List.ofFn d).map (norm32 sum)).filter (fun x => decide (x < float32.fl dist))).length) =
      (List.finRange N).countP (fun m => decide (norm32 sum (d m) < float32.fl dist)) := by
    rw [List.filter_map, List.length_map, count]
    rfl
  unfold comStruct32 shorter
  constructor
  · apply fl64_mono
    rw [e, count, List.length_ofFn, List.length_ofFn]
    apply div_le_div_of_nonneg_right _ (Nat.cast_nonneg _)
    exact Nat.cast_le.2 <| List.countP_mono_left (fun m _ hm => by
      simp only [decide_eq_true_eq] at hm ⊢
      exact (key m).1 hm)
  · apply fl64_mono
    rw [e, count, List.length_ofFn, List.length_ofFn]
    apply div_le_div_of_nonneg_right _ (Nat.cast_nonneg _)
    exact Nat.cast_le.2 <| List.countP_mono_left (fun m _ hm => by
      simp only [decide_eq_true_eq] at hm ⊢
      exact (key m).2 hm)

/-- **C132**: the true displacement of molecule `m` is `c.flat (u n m - u 0 m)`, and `s` are stored images of the
positions; `η` is the error of one component of C116.  With `L` an upper bound of all lengths and of their
errors, what is reported after `n` frames as mean displacement, mean squared displacement and structural
relaxation differs from the averages of the true displacements by no more than this. -/
theorem C132_displacements (hs : IsSum sum) (c : Cell) (wrap : V3 → V3) {N : ℕ} (hN0 : 0 < N) (hN : N ≤ 2 ^ 20)
    (u s : ℕ → Fin N → V3) (n : ℕ) {ε B L η : ℝ}
    (hwrap : ∀ i < n, ∀ m, Within ε (wrap (fl3 (s i m - s (i + 1) m)) + c.flat (u (i + 1) m - u i m)))
    (hB : ∀ i ≤ n, ∀ m, Within B (c.flat (u i m - u 0 m))) (hε : 0 ≤ ε) (hB0 : 0 ≤ B)
    (hη : η = n * (1 + 2 ^ (-24 : ℤ)) ^ n * (ε + (2 ^ (-24 : ℤ) * B + 2 ^ (-150 : ℤ))))
    (hL : 1 ≤ L) (hLB : 2 * B + 8 * η ≤ L) :
    ∃ ds, track32 wrap (List.ofFn (s 0)) ((List.range n).map (fun i => List.ofFn (s (i + 1)))) = .ok ds ∧
      |meanNorm32 sum ds - average (List.finRange N) (fun m => length3 (c.flat (u n m - u 0 m)))| ≤
        2 * η + L * (N + 3) / 2 ^ 22 ∧
      |msd32 sum ds - average (List.finRange N) (fun m => lenSq (c.flat (u n m - u 0 m)))| ≤
        4 * η * L + L ^ 2 * (N + 2) / 2 ^ 22 ∧
      ∀ dist, 1 / 2 ^ 40 ≤ dist →
        float64.fl (shorter (dist * (1 - 1 / 2 ^ 20) - 2 * η) (List.ofFn (fun m => c.flat (u n m - u 0 m)))) ≤
          comStruct32 sum dist ds ∧
        comStruct32 sum dist ds ≤
          float64.fl (shorter (dist * (1 + 1 / 2 ^ 20) + 2 * η) (List.ofFn (fun m => c.flat (u n m - u 0 m)))) := by
  obtain ⟨d, hd, herr⟩ := C116_error_partial c wrap u s n hwrap hB hε hB0
  have hclose (m : Fin N) : |length3 (d m) - length3 (c.flat (u n m - u 0 m))| ≤ 2 * η := by
    have h1 := herr m
    rw [← hη] at h1
    exact (length3_sub _ _).trans (length3_within h1)
  have hD (m : Fin N) : length3 (c.flat (u n m - u 0 m)) ≤ L - 4 * (2 * η) := by
    have := length3_within (hB n le_rfl m)
    linarith
  obtain ⟨h1, h2⟩ := averages_error hs hN0 hN d (fun m => c.flat (u n m - u 0 m)) hclose hD hL
  refine ⟨List.ofFn d, hd, h1, ?_, fun dist hdist =>
    near_share hs d (fun m => c.flat (u n m - u 0 m)) hclose hdist⟩
  refine h2.trans (le_of_eq ?_)
  ring

/-- The first four frames of the walk of C116, with a `wrap` that is off by 1/1000; the other hypotheses are shown
there. -/
example : 2 * (3 : ℝ) + 8 * ((3 : ℕ) * (1 + 2 ^ (-24 : ℤ)) ^ 3 * (1 / 1000 + (2 ^ (-24 : ℤ) * 3 + 2 ^ (-150 : ℤ)))) ≤
    7 := by
  have t : (2 : ℝ) ^ (-150 : ℤ) ≤ 1 / 1000 := by
    have : (2 : ℝ) ^ (-150 : ℤ) ≤ 2 ^ (-10 : ℤ) := two_zpow_le (by norm_num)
    exact this.trans (by norm_num)
  have e : (2 : ℝ) ^ (-24 : ℤ) = 1 / 16777216 := by norm_num
  rw [e]
  generalize (2 : ℝ) ^ (-150 : ℤ) = s at t
  push_cast
  norm_num
  linarith

/-- **C133**: the true angle of molecule `m` about z is `θ i m`, and the orientations are the quaternions of it,
of either sign, rounded to float32; `η` is the error of C118.  What is reported after `n` frames as mean rotation,
mean squared rotation, `rot1` and `rot2` differs from the averages of the true angles, their squares, cosines and
cosines of twice the angle by no more than this, for a cosine right up to `δ`. -/
theorem C133_rotations (hs : IsSum sum) {δ : ℝ} {cos32 : ℝ → ℝ} (hc : IsCos δ cos32) (hδ : δ ≤ 1 / 16)
    (tol : Tolerance) (hgim : tol.gimbal < 1) (hunit : 3 * 2 ^ (-23 : ℤ) ≤ tol.unit) {N : ℕ} (hN0 : 0 < N)
    (hN : N ≤ 2 ^ 20) (θ σ : ℕ → Fin N → ℝ) (n : ℕ) {B L η : ℝ} (hσ : ∀ i ≤ n, ∀ m, σ i m = 1 ∨ σ i m = -1)
    (hstep : ∀ i < n, ∀ m, |θ (i + 1) m - θ i m| + 10 * 2 ^ (-23 : ℤ) < Real.pi)
    (hB0 : 0 ≤ B) (hB : ∀ i ≤ n, ∀ m, |θ i m - θ 0 m| ≤ B)
    (hη : η = n * (1 + 2 ^ (-24 : ℤ)) ^ n * (10 * 2 ^ (-23 : ℤ) + (2 ^ (-24 : ℤ) * B + 2 ^ (-150 : ℤ))))
    (hη' : η ≤ 1 / 32) (hL : 1 ≤ L) (hL' : L ≤ 2 ^ 15) (hLB : B + 4 * η ≤ L) :
    ∃ rs, turn32 tol (List.ofFn (fun m => flQ (σ 0 m • zRot (θ 0 m))))
          ((List.range n).map (fun i => List.ofFn (fun m => flQ (σ (i + 1) m • zRot (θ (i + 1) m))))) = .ok rs ∧
      |meanNorm32 sum rs - average (List.finRange N) (fun m => |θ n m - θ 0 m|)| ≤
        η + L * (N + 3) / 2 ^ 22 ∧
      |msd32 sum rs - average (List.finRange N) (fun m => (θ n m - θ 0 m) ^ 2)| ≤
        2 * η * L + L ^ 2 * (N + 2) / 2 ^ 22 ∧
      |rot1F sum cos32 rs - average (List.finRange N) (fun m => Real.cos (θ n m - θ 0 m))| ≤
        δ + η + (3 * L + N) / 2 ^ 22 ∧
      |rot2F sum cos32 rs - average (List.finRange N) (fun m => Real.cos (2 * (θ n m - θ 0 m)))| ≤
        5 * (δ + η) + (15 * L + N + 4) / 2 ^ 22 := by
  obtain ⟨x, hx, herr⟩ := C118_stored tol hgim hunit θ σ n hσ hstep hB0 hB
  have hlen (y : ℝ) : length3 (y, 0, 0) = |y| := by
    unfold length3
    simp [Real.sqrt_sq_eq_abs]
  have hsq (y : ℝ) : lenSq (y, 0, 0) = y ^ 2 := by
    unfold lenSq
    simp
  have hη0 : 0 ≤ η := by rw [hη]; positivity
  have hclose (m : Fin N) : |length3 (x m, 0, 0) - length3 (θ n m - θ 0 m, 0, 0)| ≤ η := by
    rw [hlen, hlen, hη]
    exact (abs_abs_sub_abs_le _ _).trans (herr m)
  have hD (m : Fin N) : length3 (θ n m - θ 0 m, 0, 0) ≤ L - 4 * η := by
    rw [hlen]
    have := hB n le_rfl m
    linarith
  obtain ⟨h1, h2⟩ := averages_error hs hN0 hN (fun m => (x m, 0, 0)) (fun m => (θ n m - θ 0 m, 0, 0))
    hclose hD hL
  simp only [hlen, hsq] at h1 h2
  have hne : List.finRange N ≠ [] := by
    intro h
    have := congrArg List.length h
    rw [List.length_finRange, List.length_nil] at this
    omega
  have hlen' : (List.finRange N).length ≤ 2 ^ 20 := by rw [List.length_finRange]; exact hN
  have t72 : (2 : ℝ) ^ (-72 : ℤ) ≤ 1 / 4194304 := by
    have : (2 : ℝ) ^ (-72 : ℤ) ≤ 2 ^ (-22 : ℤ) := two_zpow_le (by norm_num)
    exact this.trans (by norm_num)
  have hcos (m : Fin N) : |cos32 (norm32 sum (x m, 0, 0)) - Real.cos (θ n m - θ 0 m)| ≤
      δ + η + 3 * L / 4194304 := by
    have k1 := hc (norm32 sum (x m, 0, 0)) (fl_number float32 _)
    have k3 := norm32_error hs (x m, 0, 0)
    have k4 := hclose m
    have k5 := hD m
    rw [hlen (θ n m - θ 0 m)] at k4 k5
    rw [← Real.cos_abs (θ n m - θ 0 m)]
    set a : ℝ := |θ n m - θ 0 m|
    set w : ℝ := length3 (x m, 0, 0)
    set y : ℝ := norm32 sum (x m, 0, 0)
    have k2 : |Real.cos y - Real.cos a| ≤ |y - a| := Real.abs_cos_sub_cos_le _ _
    have k6 := (abs_le.1 k4).2
    have k7 : |y - a| ≤ |y - w| + |w - a| := by
      have := abs_add_le (y - w) (w - a)
      rwa [sub_add_sub_cancel] at this
    have k8 : |cos32 y - Real.cos a| ≤ |cos32 y - Real.cos y| + |Real.cos y - Real.cos a| := by
      have := abs_add_le (cos32 y - Real.cos y) (Real.cos y - Real.cos a)
      rwa [sub_add_sub_cancel] at this
    linarith
  have hε : δ + η + 3 * L / 4194304 ≤ 1 / 8 := by norm_num at hL'; linarith
  refine ⟨_, hx, h1, h2, ?_, ?_⟩
  · have := mean32_error hs (f := fun m => cos32 (norm32 sum (x m, 0, 0)))
      (g := fun m => Real.cos (θ n m - θ 0 m)) (by linarith) hne hlen' (fun m _ => Real.abs_cos_le_one _)
      (fun m _ => hcos m)
    rw [List.length_finRange] at this
    unfold rot1F
    rw [List.ofFn_eq_map, List.map_map]
    refine le_trans this (le_of_eq ?_)
    norm_num
    ring
  · have := mean32_error hs (f := fun m => double32 (cos32 (norm32 sum (x m, 0, 0))))
      (g := fun m => Real.cos (2 * (θ n m - θ 0 m)))
      (ε := 5 * (δ + η + 3 * L / 4194304) + 1 / 1048576) (by linarith) hne hlen'
      (fun m _ => Real.abs_cos_le_one _)
      (fun m _ => by
        rw [Real.cos_two_mul]
        exact cos2_error (Real.abs_cos_le_one _) hε (hcos m))
    rw [List.length_finRange] at this
    unfold rot2F
    rw [List.ofFn_eq_map, List.map_map]
    refine le_trans this (le_of_eq ?_)
    norm_num
    ring

/-- Ten frames of rotations by 3 radians, as in C118. -/
example : let η : ℝ := (10 : ℕ) * (1 + 2 ^ (-24 : ℤ)) ^ 10 *
      (10 * 2 ^ (-23 : ℤ) + (2 ^ (-24 : ℤ) * 30 + 2 ^ (-150 : ℤ)))
    η ≤ 1 / 32 ∧ 30 + 4 * η ≤ 31 := by
  intro η
  have t : (2 : ℝ) ^ (-150 : ℤ) ≤ 1 / 1000000 := by
    have : (2 : ℝ) ^ (-150 : ℤ) ≤ 2 ^ (-20 : ℤ) := two_zpow_le (by norm_num)
    exact this.trans (by norm_num)
  have h : η ≤ 1 / 32 := by
    have e : (2 : ℝ) ^ (-24 : ℤ) = 1 / 16777216 := by norm_num
    have e' : (2 : ℝ) ^ (-23 : ℤ) = 1 / 8388608 := by norm_num
    simp only [η]
    rw [e, e']
    generalize (2 : ℝ) ^ (-150 : ℤ) = s at t
    push_cast
    norm_num
    linarith
  clear_value η
  exact ⟨h, by linarith⟩

end Verif.Rounding
