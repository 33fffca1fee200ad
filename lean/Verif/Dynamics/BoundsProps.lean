import Verif.Dynamics.BoundsLemmas
import Verif.Dynamics.OverlapProps
import Verif.Dynamics.Props
/-!
# C147: the reported quantities bound each other
-/

namespace Verif.Dynamics

open Verif.Motion

/-- **C147, translations.**  For a wave number `k` and at least three wave vectors: the proportion of
molecules that moved by π/2k or more is at most 4k²/π² times the mean squared displacement, and the
scattering function is at least 1 - k²/4 times it. -/
theorem C147_translations {argsort : List ℝ → List ℕ} {D0 D D' : Dyn} {t0 : ℤ} {box : List ℝ}
    {p0 : List V3} {o0 : Option (List Quat)} {mol : Option Mol} {k : ℝ} (hk : 0 < k) {res : ℕ}
    (hres : 3 ≤ res) (hnew : Dyn.new t0 box p0 o0 mol (some k) res = .ok D0) {fs : List Frame}
    (hadd : addFrames D0 fs = .ok D) {t : ℤ} {pos : List V3}
    {ori : Option (List Quat)} {row : Dict Quantity Val}
    (h : D.computeAll argsort t pos ori true = (D', .ok row))
    {N : ℕ} (hN : 0 < N) (d r : Fin N → V3) (hd : D'.motion.deltaT = List.ofFn d)
    (hr : D'.motion.deltaR = List.ofFn r) :
    ∃ msd com isf : ℝ, Reports row .msd msd ∧ Reports row .com_struct com ∧
      Reports row .scattering_function isf ∧
      1 - com ≤ 4 * k ^ 2 / Real.pi ^ 2 * msd ∧ 1 - isf ≤ k ^ 2 / 4 * msd := by
  classical
  have hpi := Real.pi_pos
  have hN' : (0 : ℝ) < N := by exact_mod_cast hN
  have hres' : (0 : ℝ) < res := by
    have : 0 < res := by omega
    exact_mod_cast this
  obtain ⟨-, msd, -, -, -, -, hmsd, -, -, -, -, emsd, -⟩ := C33_moments h hN d r hd hr
  obtain ⟨isf, hisf, eisf, -⟩ := C35_isf (by omega) hnew hadd h hN d hd
  have hw : D.waveNumber = some k := by
    rw [(addFrames_wave hadd).1, (new_wave hnew).1]
  have hcom := C36_com_struct h hw d hd
  refine ⟨msd, _, isf, hmsd, hcom, hisf, ?_, ?_⟩
  · have hd0 : 0 < Real.pi / (2 * k) := by positivity
    have e : 4 * k ^ 2 / Real.pi ^ 2 * msd = msd / (Real.pi / (2 * k)) ^ 2 := by
      field_simp
      ring
    rw [e, le_div_iff₀ (by positivity), emsd]
    unfold avg
    rw [le_div_iff₀ hN']
    have hsum : ∑ m, (if len (d m) < Real.pi / (2 * k) then 0 else (Real.pi / (2 * k)) ^ 2) ≤
        ∑ m, len (d m) ^ 2 := by
      apply Finset.sum_le_sum
      intro m _
      split
      · positivity
      · rename_i h1
        exact pow_le_pow_left₀ hd0.le (not_lt.1 h1) 2
    refine le_trans (le_of_eq ?_) hsum
    rw [Finset.sum_ite, Finset.sum_const_zero, zero_add, Finset.sum_const, nsmul_eq_mul]
    have h1 := Finset.card_filter_add_card_filter_not (s := (Finset.univ : Finset (Fin N)))
      (fun m => len (d m) < Real.pi / (2 * k))
    rw [Finset.card_univ, Fintype.card_fin] at h1
    have h2 : ((Finset.univ.filter (fun m => len (d m) < Real.pi / (2 * k))).card : ℝ) +
        ((Finset.univ.filter (fun m => ¬ len (d m) < Real.pi / (2 * k))).card : ℝ) = N := by
      exact_mod_cast h1
    have h3 : ((Finset.univ.filter (fun m => ¬ len (d m) < Real.pi / (2 * k))).card : ℝ) =
        N - ((Finset.univ.filter (fun m => len (d m) < Real.pi / (2 * k))).card : ℝ) := by linarith
    rw [h3]
    have h4 : ∀ i j : DecidablePred (fun m => len (d m) < Real.pi / (2 * k)),
        (@Finset.filter _ (fun m => len (d m) < Real.pi / (2 * k)) i Finset.univ).card =
        (@Finset.filter _ (fun m => len (d m) < Real.pi / (2 * k)) j Finset.univ).card :=
      fun i j => by congr
    have h5 : ∀ x y : ℝ, (1 - x / N) * y * N = (N - x) * y := by
      intro x y
      field_simp
    rw [h4 (fun m => Classical.propDecidable _) inferInstance]
    exact h5 _ _
  · rw [eisf, emsd]
    have h1 : avg (fun j : Fin res => avg (fun m => 1 - k ^ 2 / 2 *
        (Real.cos (2 * Real.pi * j / res) * (d m).1 +
          Real.sin (2 * Real.pi * j / res) * (d m).2.1) ^ 2)) ≤
        avg (fun j : Fin res => avg (fun m => Real.cos (k *
        (Real.cos (2 * Real.pi * j / res) * (d m).1 +
          Real.sin (2 * Real.pi * j / res) * (d m).2.1)))) := by
      refine avg_mono fun j => avg_mono fun m => ?_
      have := Real.one_sub_sq_div_two_le_cos (x := k *
        (Real.cos (2 * Real.pi * j / res) * (d m).1 + Real.sin (2 * Real.pi * j / res) * (d m).2.1))
      rw [mul_pow] at this
      linarith
    have h2 : avg (fun j : Fin res => avg (fun m => 1 - k ^ 2 / 2 *
        (Real.cos (2 * Real.pi * j / res) * (d m).1 +
          Real.sin (2 * Real.pi * j / res) * (d m).2.1) ^ 2)) =
        avg (fun m => 1 - k ^ 2 / 4 * ((d m).1 ^ 2 + (d m).2.1 ^ 2)) := by
      rw [avg_swap]
      congr 1
      funext m
      unfold avg
      rw [Finset.sum_sub_distrib, ← Finset.mul_sum, sum_directions hres]
      simp
      field_simp
      ring
    have h3 : 1 - k ^ 2 / 4 * avg (fun m => len (d m) ^ 2) ≤
        avg (fun m => 1 - k ^ 2 / 4 * ((d m).1 ^ 2 + (d m).2.1 ^ 2)) := by
      have e : 1 - k ^ 2 / 4 * avg (fun m => len (d m) ^ 2) =
          avg (fun m => 1 - k ^ 2 / 4 * len (d m) ^ 2) := by
        unfold avg
        rw [Finset.sum_sub_distrib, ← Finset.mul_sum]
        simp
        field_simp
      rw [e]
      refine avg_mono fun m => ?_
      rw [len_sq]
      unfold len2
      have : 0 ≤ k ^ 2 / 4 * (d m).2.2 ^ 2 := by positivity
      nlinarith
    linarith

/-- **C147, rotations.**  rot1 is at least 1 - msr/2, rot2 at least 1 - 2 msr, and rot2 at least
2 rot1² - 1. -/
theorem C147_rotations {argsort : List ℝ → List ℕ} {D D' : Dyn} {t : ℤ} {pos : List V3}
    {ori : Option (List Quat)} {sc : Bool} {row : Dict Quantity Val}
    (h : D.computeAll argsort t pos ori sc = (D', .ok row))
    {N : ℕ} (hN : 0 < N) (d r : Fin N → V3) (hd : D'.motion.deltaT = List.ofFn d)
    (hr : D'.motion.deltaR = List.ofFn r) :
    ∃ msr r1 r2 : ℝ, Reports row .msr msr ∧ Reports row .rot1 r1 ∧ Reports row .rot2 r2 ∧
      1 - r1 ≤ msr / 2 ∧ 1 - r2 ≤ 2 * msr ∧ 2 * r1 ^ 2 - 1 ≤ r2 := by
  have hN' : (0 : ℝ) < N := by exact_mod_cast hN
  obtain ⟨-, -, -, -, msr, -, -, -, -, hmsr, -, -, -, -, emsr, -⟩ := C33_moments h hN d r hd hr
  obtain ⟨r1, r2, h1, h2, e1, e2, -⟩ := C35_rotational h hN r hr
  have lin : ∀ a b : ℝ, ∀ f : Fin N → ℝ, avg (fun m => a - b * f m) = a - b * avg f := by
    intro a b f
    unfold avg
    rw [Finset.sum_sub_distrib, ← Finset.mul_sum]
    simp
    field_simp
  refine ⟨msr, r1, r2, hmsr, h1, h2, ?_, ?_, ?_⟩
  · have := avg_mono (f := fun m => 1 - 1 / 2 * len (r m) ^ 2) (g := fun m => Real.cos (len (r m)))
      (fun m => by
        have := Real.one_sub_sq_div_two_le_cos (x := len (r m))
        linarith)
    rw [lin] at this
    rw [e1, emsr]
    linarith
  · have := avg_mono (f := fun m => 1 - 2 * len (r m) ^ 2) (g := fun m => Real.cos (2 * len (r m)))
      (fun m => by
        have := Real.one_sub_sq_div_two_le_cos (x := 2 * len (r m))
        linarith)
    rw [lin] at this
    rw [e2, emsr]
    linarith
  · have h3 := avg_sq_le hN (fun m => Real.cos (len (r m)))
    have h4 : avg (fun m => Real.cos (2 * len (r m))) =
        2 * avg (fun m => Real.cos (len (r m)) ^ 2) - 1 := by
      have := lin (-1) (-2) (fun m => Real.cos (len (r m)) ^ 2)
      have e : (fun m => Real.cos (2 * len (r m))) = fun m => -1 - -2 * Real.cos (len (r m)) ^ 2 := by
        funext m
        rw [Real.cos_two_mul]
        ring
      rw [e, this]
      ring
    rw [e1, e2, h4]
    linarith

/-- The hypotheses of both hold for ten molecules of which one moves and turns. -/
example (argsort : List ℝ → List ℕ) : ∃ (D0 D D' : Dyn) (row : Dict Quantity Val)
    (d r : Fin 10 → V3),
    Dyn.new 0 [10, 10, 1, 0, 0, 0] (frame exS exO 0).1 (frame exS exO 0).2 (some exMol) (some 2) 360 =
      .ok D0 ∧ addFrames D0 (frames exS exO 1 2) = .ok D ∧
    D.computeAll argsort 5 (frame exS exO 2).1 (frame exS exO 2).2 true = (D', .ok row) ∧
    D'.motion.deltaT = List.ofFn d ∧ D'.motion.deltaR = List.ofFn r := by
  have h := new_track (N := 10) (by omega) (box := [10, 10, 1, 0, 0, 0]) (mol := some exMol) rfl
    (some 2) 360 0 exS exO exO_unit 1
  cases hn : Dyn.new 0 [10, 10, 1, 0, 0, 0] (frame exS exO 0).1 (frame exS exO 0).2 (some exMol)
      (some 2) 360 with
  | error e => rw [hn] at h; cases h
  | ok D0 =>
    rw [hn] at h
    obtain ⟨row, hrow⟩ := quantities_succeeds (D := dynAfter _ (some exMol) (some 2) 360 0 exS exO 2)
      argsort 5 true (N := 10) le_rfl rfl rfl rfl (by simp [dynAfter]) (by simp [dynAfter])
      (by simp [dynAfter, exMol])
    exact ⟨D0, _, _, row, _, _, rfl, h,
      (computeAll_dynAfter argsort _ _ _ _ _ _ _ _ exO_unit 1 true).trans (by rw [hrow]), rfl, rfl⟩

end Verif.Dynamics
