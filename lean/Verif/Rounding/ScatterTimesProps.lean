import Verif.Rounding.ScatterProps
import Verif.Rounding.TimesLemmas
/-!
# C173: the relaxation time of the scattering function
-/

namespace Verif.Rounding

open Verif.Motion Verif.Dynamics Verif.Wave Verif.RelaxTime

variable {cos64 sin64 : ℝ → ℝ} {dot : ℝ × ℝ → ℝ × ℝ → ℝ} {sum : List ℝ → ℝ}

/-- **C173, relaxation times.**  The values of the scattering function for a keyframe and the `M` frames after it,
computed from float32 positions, lead to the same relaxation time as the averages of the Bessel function over the true
distances, when none of these is as near to 1/e as the error (`thr` is the float64 `1 / np.e`). -/
theorem C173_times (hs : IsSum64 sum) {δ k : ℝ} (hc : IsFun64 δ cos64 Real.cos)
    (hsn : IsFun64 δ sin64 Real.sin) (hδ : δ ≤ 1 / 8) (hd : IsDot dot) (c : Cell) (wrap : V3 → V3) {N : ℕ}
    (hN0 : 0 < N) (hN : N ≤ 2 ^ 20) (u s : ℕ → Fin N → V3) (M : ℕ) {ε B η E : ℝ}
    (hwrap : ∀ i < M, ∀ m, Within ε (wrap (fl3 (s i m - s (i + 1) m)) + c.flat (u (i + 1) m - u i m)))
    (hB : ∀ i ≤ M, ∀ m, Within B (c.flat (u i m - u 0 m))) (hε : 0 ≤ ε) (hB0 : 0 ≤ B)
    (hη : η = M * (1 + 2 ^ (-24 : ℤ)) ^ M * (ε + (2 ^ (-24 : ℤ) * B + 2 ^ (-150 : ℤ))))
    (hz : ∀ n ≤ M, ∀ m, |k| * planar (c.flat (u n m - u 0 m)) ≤ 50)
    (hE : E = 2 * |k| * η + (|k| * (2 * (B + η)) + 1) * (δ + 1 / 2 ^ 46) + 2 ^ (-1000 : ℤ) * (2 * (B + η) + 1) +
          360 * N / 2 ^ 50 + 1 / 10 ^ 100) :
    ∃ ds : ℕ → List V3,
      (∀ n ≤ M, track32 wrap (List.ofFn (s 0)) ((List.range n).map (fun i => List.ofFn (s (i + 1)))) = .ok (ds n)) ∧
      ∀ signals time thr, |thr - 1 / Real.exp 1| ≤ 2 ^ (-52 : ℤ) →
        ClearOf (E + 2 ^ (-52 : ℤ)) (1 / Real.exp 1)
          (series M (fun n => avg (fun m => bessel0 (k * planar (c.flat (u n m - u 0 m)))))) →
        thresholdRelaxation signals time (series M (fun n => isf64 cos64 sin64 dot sum k 360 (ds n))) thr =
          thresholdRelaxation signals time
            (series M (fun n => avg (fun m => bessel0 (k * planar (c.flat (u n m - u 0 m)))))) := by
  have hq : (0 : ℝ) ≤ ε + (2 ^ (-24 : ℤ) * B + 2 ^ (-150 : ℤ)) := by positivity
  have hδ0 : 0 ≤ δ := (abs_nonneg _).trans (hc 0 ⟨0, 0, by norm_num, by decide, by simp⟩)
  have key : ∀ n, ∃ ds, n ≤ M →
      track32 wrap (List.ofFn (s 0)) ((List.range n).map (fun i => List.ofFn (s (i + 1)))) = .ok ds ∧
      |isf64 cos64 sin64 dot sum k 360 ds - avg (fun m => bessel0 (k * planar (c.flat (u n m - u 0 m))))| ≤ E := by
    intro n
    by_cases hn : n ≤ M
    · have hmono := eta_mono hn hq
      rw [← hη] at hmono
      obtain ⟨ds, h1, h2⟩ := C173_true_motion (k := k) hs hc hsn hδ hd c wrap hN0 hN u s n (B := B)
        (fun i hi => hwrap i (hi.trans_le hn)) (fun i hi => hB i (hi.trans hn)) hε hB0 rfl (hz n hn)
      generalize (n : ℝ) * (1 + 2 ^ (-24 : ℤ)) ^ n * (ε + (2 ^ (-24 : ℤ) * B + 2 ^ (-150 : ℤ))) = ζ at *
      refine ⟨ds, fun _ => ⟨h1, h2.trans ?_⟩⟩
      rw [hE]
      have hk := abs_nonneg k
      have t0 : (0 : ℝ) ≤ 2 ^ (-1000 : ℤ) := (zpow_pos (by norm_num) _).le
      have t46 : (0 : ℝ) ≤ δ + 1 / 2 ^ 46 := by positivity
      generalize (2 : ℝ) ^ (-1000 : ℤ) = τ at *
      gcongr
    · exact ⟨[], fun h => absurd h hn⟩
  choose ds hds using key
  refine ⟨ds, fun n hn => (hds n hn).1, fun signals time thr hthr hcl => ?_⟩
  exact threshold_off (fun n hn => (hds n hn).2) hthr hcl

/-- At the first frame of a keyframe the average is 1, which is not near to 1/e; the other hypotheses are met by the
examples of `C173_displacements` and `C173_true_motion`. -/
example (c : Cell) (u : ℕ → Fin 2 → V3) (k : ℝ) :
    ClearOf (1 / 2) (1 / Real.exp 1) (series 0 (fun n => avg (fun m => bessel0 (k * planar (c.flat (u n m - u 0 m)))))) := by
  intro x hx
  obtain ⟨n, hn, rfl⟩ := mem_series.1 hx
  obtain rfl : n = 0 := by omega
  have hflat (m : Fin 2) : c.flat (u 0 m - u 0 m) = 0 := by
    rw [sub_self]; unfold Cell.flat; split <;> rfl
  have hb : bessel0 0 = 1 := by
    unfold bessel0
    simp
  have h1 : avg (fun m : Fin 2 => bessel0 (k * planar (c.flat (u 0 m - u 0 m)))) = 1 := by
    simp only [hflat]
    simp [planar, avg, hb]
  rw [h1]
  have e1 := Real.exp_one_gt_d9
  have h3 : 1 / Real.exp 1 < 37 / 100 := by
    rw [div_lt_div_iff₀ (Real.exp_pos 1) (by norm_num)]
    linarith
  rw [lt_abs]
  left
  linarith

end Verif.Rounding
