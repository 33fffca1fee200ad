import Verif.Rounding.ScatterLemmas
import Verif.Rounding.TrackProps
import Verif.Wave.DirectionLemmas
/-!
# C173: the scattering function with the rounding of numpy
-/

namespace Verif.Rounding

open Verif.Motion Verif.Dynamics Verif.Wave

variable {cos64 sin64 : ℝ → ℝ} {dot : ℝ × ℝ → ℝ × ℝ → ℝ} {sum : List ℝ → ℝ}

/-- **C173, given the displacements.**  The scattering function of displacements `d` differs from the average
of `cos (k · d)` over the wave vectors and the molecules by no more than this, for `np.cos` and `np.sin` right up
to `δ`, whatever the order of the additions; `R` is a bound for the displacements. -/
theorem C173_displacements (hs : IsSum64 sum) {δ k R : ℝ} (hc : IsFun64 δ cos64 Real.cos)
    (hsn : IsFun64 δ sin64 Real.sin) (hδ : δ ≤ 1 / 8) (hd : IsDot dot) {res N : ℕ} (hres0 : 0 < res)
    (hres : res ≤ 2 ^ 20) (hN0 : 0 < N) (hN : N ≤ 2 ^ 20) (d : Fin N → V3)
    (hR : ∀ m, |(d m).1| + |(d m).2.1| ≤ R) :
    |isf64 cos64 sin64 dot sum k res (List.ofFn d) - avg (fun j : Fin res => avg (fun m =>
        Real.cos (k * (Real.cos (2 * Real.pi * j / res) * (d m).1 +
          Real.sin (2 * Real.pi * j / res) * (d m).2.1))))| ≤
      (|k| * R + 1) * (δ + 1 / 2 ^ 46) + 2 ^ (-1000 : ℤ) * (R + 1) + res * N / 2 ^ 50 := by
  have := isf64_error (k := k) hs hc hsn hδ hd hres0 hres hN0 hN d d (η := 0) hR (fun m => by simp) (fun m => by simp)
  rwa [mul_zero, add_zero] at this

/-- Sums from the left, rounded products, and the cosine and sine rounded to the nearest float64. -/
example : IsSum64 sumLeft64 ∧ IsDot (fun w v => float64.fl (float64.fl (w.1 * v.1) + float64.fl (w.2 * v.2))) ∧
    IsFun64 (1 / 2 ^ 50) (fun x => float64.fl (Real.cos x)) Real.cos ∧
    IsFun64 (1 / 2 ^ 50) (fun x => float64.fl (Real.sin x)) Real.sin ∧
    float64.fl (Real.cos 0) = 1 ∧ ∀ x, |float64.fl (Real.cos x)| ≤ 1 := by
  have h (y : ℝ) (hy : |y| ≤ 1) : |float64.fl y - y| ≤ 1 / 2 ^ 50 := by
    have h1 := fl64_error' y
    have h2 := t1075
    norm_num at h1 h2 ⊢
    linarith
  refine ⟨sumLeft64_sum, fun w v => Or.inl rfl, fun x _ => h _ (Real.abs_cos_le_one x),
    fun x _ => h _ (Real.abs_sin_le_one x), by rw [Real.cos_zero, fl64_one], fun x => ?_⟩
  have m {x y : ℝ} (h : x ≤ y) : float64.fl x ≤ float64.fl y :=
    (fl_nearest float64 (by norm_num [float64])).mono h
  have h1 := m (Real.cos_le_one x)
  have h2 := m (Real.neg_one_le_cos x)
  rw [fl64_one] at h1
  rw [fl_neg, fl64_one] at h2
  exact abs_le.2 ⟨h2, h1⟩

/-- **C173, from the true motion.**  In the runs of C116 (the true displacement of molecule `m` is
`c.flat (u n m - u 0 m)`, `s` are stored images of the positions, `η` is the error of one component), the
scattering function reported after `n` frames with the 360 wave vectors of `process_file` differs from the average
over the molecules of the Bessel function of the wave number times the true distance in the plane by no
more than this. -/
theorem C173_true_motion (hs : IsSum64 sum) {δ k : ℝ} (hc : IsFun64 δ cos64 Real.cos)
    (hsn : IsFun64 δ sin64 Real.sin) (hδ : δ ≤ 1 / 8) (hd : IsDot dot) (c : Cell) (wrap : V3 → V3) {N : ℕ}
    (hN0 : 0 < N) (hN : N ≤ 2 ^ 20) (u s : ℕ → Fin N → V3) (n : ℕ) {ε B η : ℝ}
    (hwrap : ∀ i < n, ∀ m, Within ε (wrap (fl3 (s i m - s (i + 1) m)) + c.flat (u (i + 1) m - u i m)))
    (hB : ∀ i ≤ n, ∀ m, Within B (c.flat (u i m - u 0 m))) (hε : 0 ≤ ε) (hB0 : 0 ≤ B)
    (hη : η = n * (1 + 2 ^ (-24 : ℤ)) ^ n * (ε + (2 ^ (-24 : ℤ) * B + 2 ^ (-150 : ℤ))))
    (hz : ∀ m, |k| * planar (c.flat (u n m - u 0 m)) ≤ 50) :
    ∃ ds, track32 wrap (List.ofFn (s 0)) ((List.range n).map (fun i => List.ofFn (s (i + 1)))) = .ok ds ∧
      |isf64 cos64 sin64 dot sum k 360 ds - avg (fun m => bessel0 (k * planar (c.flat (u n m - u 0 m))))| ≤
        2 * |k| * η + (|k| * (2 * (B + η)) + 1) * (δ + 1 / 2 ^ 46) + 2 ^ (-1000 : ℤ) * (2 * (B + η) + 1) +
          360 * N / 2 ^ 50 + 1 / 10 ^ 100 := by
  obtain ⟨d, hd', herr⟩ := C116_error_partial c wrap u s n hwrap hB hε hB0
  rw [← hη] at herr
  refine ⟨List.ofFn d, hd', ?_⟩
  set D : Fin N → V3 := fun m => c.flat (u n m - u 0 m) with hD
  have hsize (a b : ℝ) (h1 : |a - b| ≤ η) (h2 : |b| ≤ B) : |a| ≤ B + η := by
    have := abs_add_le (a - b) b
    rw [sub_add_cancel] at this
    linarith
  have h1 := isf64_error (k := k) (R := 2 * (B + η)) hs hc hsn hδ hd (res := 360) (by norm_num) (by norm_num)
    hN0 hN d D
    (fun m => by
      have a1 := hsize _ _ (herr m).1 (hB n le_rfl m).1
      have a2 := hsize _ _ (herr m).2.1 (hB n le_rfl m).2.1
      linarith)
    (fun m => (herr m).1) (fun m => (herr m).2.1)
  have h2 := (directions_close hN0 (res := 360) (by norm_num) k D hz).trans bound_360
  have h3 := abs_add_le (isf64 cos64 sin64 dot sum k 360 (List.ofFn d) - avg (fun j : Fin 360 => avg (fun m =>
        Real.cos (k * (Real.cos (2 * Real.pi * j / (360 : ℕ)) * (D m).1 +
          Real.sin (2 * Real.pi * j / (360 : ℕ)) * (D m).2.1)))))
    (avg (fun j : Fin 360 => avg (fun m =>
        Real.cos (k * (Real.cos (2 * Real.pi * j / (360 : ℕ)) * (D m).1 +
          Real.sin (2 * Real.pi * j / (360 : ℕ)) * (D m).2.1)))) - avg (fun m => bessel0 (k * planar (D m))))
  rw [sub_add_sub_cancel] at h3
  have e : ((360 : ℕ) : ℝ) * N / 2 ^ 50 = 360 * N / 2 ^ 50 := by push_cast; rfl
  rw [e] at h1
  calc _ ≤ _ := h3
    _ ≤ _ := add_le_add h1 h2
    _ = _ := by ring

/-- The first four frames of the walk of C116, with a wave number of 7 and a `wrap` that is off by 1/1000. -/
example : ∃ wrap : V3 → V3,
    (∀ i < 3, ∀ m, Within (1 / 1000) (wrap (fl3 (walkStored i m - walkStored (i + 1) m)) +
      square8.flat ((walk (i + 1), 0, 0) - (walk i, 0, 0)))) ∧
    (∀ i ≤ 3, Within 3 (square8.flat ((walk i, 0, 0) - (walk 0, 0, 0)))) ∧
    |(7 : ℝ)| * planar (square8.flat ((walk 3, 0, 0) - (walk 0, 0, 0))) ≤ 50 := by
  refine ⟨fun v => square8.box.wrap v + (1 / 1000, 0, 0), fun i _ m => ?_, fun i hi => ?_, ?_⟩
  · have := walk_wrap square8.box.wrap (fun _ _ _ => rfl) i m
    simp only [this]
    simp [Within, square8, Cell.flat]
    rw [show walk i - walk (i + 1) + (1000 : ℝ)⁻¹ + (walk (i + 1) - walk i) = 1000⁻¹ by ring,
      abs_of_pos (by norm_num)]
  · have h : walk i = i := by unfold walk; rw [if_pos (by omega)]
    have h0 : walk 0 = 0 := by simp [walk]
    rw [h, h0]
    simp [Within, square8, Cell.flat]
    exact hi
  · have h : walk 3 = 3 := by unfold walk; rw [if_pos (by omega)]; norm_num
    have h0 : walk 0 = 0 := by simp [walk]
    rw [h, h0]
    have e : Real.sqrt 9 = 3 := by rw [show (9 : ℝ) = 3 ^ 2 by norm_num, Real.sqrt_sq (by norm_num)]
    norm_num [planar, square8, Cell.flat, e]

/-- **C173, the range.**  If the values of `np.cos` are between -1 and 1, so is the scattering function: the
rounding of the sum does not take it out of the range. -/
theorem C173_range (hs : IsSum64 sum) (hc : ∀ x, |cos64 x| ≤ 1) {k : ℝ} {res : ℕ} (ds : List V3)
    (hres : 0 < res) (hds : ds ≠ []) (hn : res * ds.length ≤ 2 ^ 53) :
    |isf64 cos64 sin64 dot sum k res ds| ≤ 1 := by
  unfold isf64
  set l := (waveVectors64 cos64 sin64 k res).flatMap (fun w => ds.map (fun d => cos64 (dot w (d.1, d.2.1)))) with hl
  have hlen : l.length = res * ds.length := by
    rw [hl]
    simp [List.length_flatMap, waveVectors64, Function.comp_def]
  have hpos : 0 < l.length := by
    rw [hlen]
    exact Nat.mul_pos hres (List.length_pos_of_ne_nil hds)
  have h1 := (hs l (List.ne_nil_of_length_pos hpos)).unit (fun x hx => by
    rw [hl] at hx
    obtain ⟨w, -, hx⟩ := List.mem_flatMap.1 hx
    obtain ⟨d, -, rfl⟩ := List.mem_map.1 hx
    exact hc _) (by rw [hlen]; exact hn)
  have hpos' : (0 : ℝ) < l.length := by exact_mod_cast hpos
  have h2 := abs_le.1 h1
  have m {x y : ℝ} (h : x ≤ y) : float64.fl x ≤ float64.fl y :=
    (fl_nearest float64 (by norm_num [float64])).mono h
  have e1 := m (x := sum l / l.length) (y := 1) (by rw [div_le_one hpos']; exact h2.2)
  have e2 := m (x := -1) (y := sum l / l.length) (by rw [le_div_iff₀ hpos']; linarith [h2.1])
  rw [fl64_one] at e1
  rw [fl_neg, fl64_one] at e2
  exact abs_le.2 ⟨e2, e1⟩

/-- **C173, the start.**  Where no molecule moved in the plane the scattering function is exactly 1, for any wave
number. -/
theorem C173_start (hs : IsSum64 sum) (hc : cos64 0 = 1) (hd : IsDot dot) {k : ℝ} {res : ℕ} (ds : List V3)
    (hres : 0 < res) (hds : ds ≠ []) (hn : res * ds.length ≤ 2 ^ 53) (h0 : ∀ d ∈ ds, d.1 = 0 ∧ d.2.1 = 0) :
    isf64 cos64 sin64 dot sum k res ds = 1 := by
  unfold isf64
  set l := (waveVectors64 cos64 sin64 k res).flatMap (fun w => ds.map (fun d => cos64 (dot w (d.1, d.2.1)))) with hl
  have hlen : l.length = res * ds.length := by
    rw [hl]
    simp [List.length_flatMap, waveVectors64, Function.comp_def]
  have hpos : 0 < l.length := by
    rw [hlen]
    exact Nat.mul_pos hres (List.length_pos_of_ne_nil hds)
  have h1 := (hs l (List.ne_nil_of_length_pos hpos)).ones (fun x hx => by
    rw [hl] at hx
    obtain ⟨w, -, hx⟩ := List.mem_flatMap.1 hx
    obtain ⟨d, hm, rfl⟩ := List.mem_map.1 hx
    have : dot w (d.1, d.2.1) = 0 := by
      rw [(h0 d hm).1, (h0 d hm).2]
      rcases hd w (0, 0) with e | e | e <;> rw [e] <;> simp [fl_zero]
    rw [this, hc]) (by rw [hlen]; exact hn)
  have hpos' : (0 : ℝ) < l.length := by exact_mod_cast hpos
  show float64.fl (sum l / l.length) = 1
  rw [h1, div_self hpos'.ne', fl64_one]

/-- Two molecules, one of which moved in z only. -/
example : 360 * [((0, 0, 0) : V3), (0, 0, 1)].length ≤ 2 ^ 53 ∧ (∀ d ∈ [((0, 0, 0) : V3), (0, 0, 1)], d.1 = 0 ∧ d.2.1 = 0) := by
  constructor
  · norm_num
  · intro d hd
    simp at hd
    rcases hd with rfl | rfl <;> simp

end Verif.Rounding
