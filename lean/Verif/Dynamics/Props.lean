import Mathlib.Tactic.NormNum
import Mathlib.Analysis.Real.Pi.Bounds
import Verif.Dynamics.RunLemmas
/-!
# C33, C34, C35, C38: the quantities of `compute_all`

In all of these `D` is the object before the call, `D'` after it, `d m` and `r m` are the tracked
displacement and rotation of molecule `m`.  `exRun` is a concrete call of `compute_all` that meets
the hypotheses of these theorems: ten molecules, one of which moves and turns.
-/

namespace Verif.Dynamics

open Verif.Motion

/-- The examples below use ten molecules, of which one moves and turns. -/
noncomputable def exS (i : ℕ) (m : Fin 10) : V3 := if m = 0 then (i, 0, 0) else 0

/-- Orientations for the examples. -/
noncomputable def exO (i : ℕ) : Option (Fin 10 → Quat) := some (fun m => if m = 0 then zRot i else 1)

/-- A molecule for the examples. -/
def exMol : Mol := ⟨2, [(0, 1, 0), (0, -1, 0)]⟩

theorem exO_unit : Unit exO := by
  intro i q h m
  obtain rfl := Option.some.inj h
  by_cases hm : m = 0
  · simp [hm, normSq_zRot]
  · simp [hm]

/-- The example as a call of `compute_all` that succeeds. -/
theorem exRun (argsort : List ℝ → List ℕ) : ∃ (D D' : Dyn) (row : Dict Quantity Val)
    (d r : Fin 10 → V3),
    D.computeAll argsort 5 (frame exS exO 1).1 (frame exS exO 1).2 true = (D', .ok row) ∧
      D'.motion.deltaT = List.ofFn d ∧ D'.motion.deltaR = List.ofFn r ∧ d 0 ≠ 0 ∧ r 0 ≠ 0 := by
  let c : Cell := ⟨10, 10, 1, 0, 0, 0, true⟩
  have hc : c.Proper := by simp [c, Cell.Proper]
  let D1 := dynAfter c.box (some exMol) (some 2) 360 0 exS exO 1
  obtain ⟨row, hrow⟩ := quantities_succeeds (D := D1) argsort 5 true (N := 10) le_rfl rfl rfl rfl
    (by simp [D1, dynAfter]) (by simp [D1, dynAfter]) (by simp [D1, dynAfter, exMol])
  refine ⟨dynAfter c.box (some exMol) (some 2) 360 0 exS exO 0, D1, row, _, _, ?_, rfl, rfl, ?_, ?_⟩
  · rw [computeAll_dynAfter argsort _ _ _ _ _ _ _ _ exO_unit 0 true, hrow]
  · rw [sumT_unwrapped c hc exS exS 0 1 (fun i _ => ?_) (fun i _ => ?_)]
    · simp [exS, c, Cell.flat]
    · rw [sub_self]; exact ⟨0, 0, 0, by simp [c, Cell.flat, Cell.comb]⟩
    · refine ⟨1 / 10, 0, 0, by rw [abs_lt]; constructor <;> norm_num, by simp, by simp, ?_⟩
      simp [exS, c, Cell.flat, Cell.comb]
  · have h : |(1 : ℝ)| < Real.pi := by
      have := Real.pi_gt_three
      rw [abs_one]; linarith
    have : sumR exO 1 0 = (1, 0, 0) := by
      have h1 : zRot 1 * (zRot 0)⁻¹ = zRot 1 := by rw [zRot_inv, zRot_mul]; norm_num
      simp [sumR, rotInc, exO, h1, toEuler_zRot 1 h]
    rw [this]
    simp

/-- **C33**.  The reported moments are the averages over the molecules, with the inequalities
between them, and all are zero when nothing moved. -/
theorem C33_moments {argsort : List ℝ → List ℕ} {D D' : Dyn} {t : ℤ} {pos : List V3}
    {ori : Option (List Quat)} {sc : Bool} {row : Dict Quantity Val}
    (h : D.computeAll argsort t pos ori sc = (D', .ok row))
    {N : ℕ} (hN : 0 < N) (d r : Fin N → V3) (hd : D'.motion.deltaT = List.ofFn d)
    (hr : D'.motion.deltaR = List.ofFn r) :
    ∃ md msd mfd mr msr : ℝ,
      Reports row .mean_displacement md ∧ Reports row .msd msd ∧ Reports row .mfd mfd ∧
      Reports row .mean_rotation mr ∧ Reports row .msr msr ∧
      md = avg (fun m => len (d m)) ∧ msd = avg (fun m => len (d m) ^ 2) ∧
      mfd = avg (fun m => len (d m) ^ 4) ∧
      mr = avg (fun m => len (r m)) ∧ msr = avg (fun m => len (r m) ^ 2) ∧
      0 ≤ md ∧ md ^ 2 ≤ msd ∧ msd ^ 2 ≤ mfd ∧ 0 ≤ mr ∧ mr ^ 2 ≤ msr ∧ 0 ≤ msr ∧
      ((∀ m, d m = 0) → md = 0 ∧ msd = 0 ∧ mfd = 0) ∧
      ((∀ m, r m = 0) → mr = 0 ∧ msr = 0) := by
  obtain ⟨-, hq⟩ := computeAll_ok h
  obtain ⟨al, isf, distance, ar, ga, ov, st, -, -, -, -, -, -, -, rfl⟩ := quantities_ok hq
  have e4 : ∀ v : V3, len v ^ 4 = len2 v ^ 2 := fun v => by rw [← len_sq]; ring
  refine ⟨_, _, _, _, _, rfl, rfl, rfl, rfl, rfl, meanDisp_eq hd, ?_, ?_, meanRot_eq hr, ?_, ?_⟩
  · simp only [len_sq, msd_eq hd]
  · simp only [e4, mfd_eq hd]
  · simp only [len_sq, msr_eq hr]
  rw [meanDisp_eq hd, msd_eq hd, mfd_eq hd, meanRot_eq hr, msr_eq hr]
  refine ⟨avg_nonneg (fun m => len_nonneg _), ?_, avg_sq_le hN _,
    avg_nonneg (fun m => len_nonneg _), ?_, avg_nonneg (fun m => len2_nonneg _), ?_, ?_⟩
  · have := avg_sq_le hN (fun m => len (d m))
    simpa only [len_sq] using this
  · have := avg_sq_le hN (fun m => len (r m))
    simpa only [len_sq] using this
  · intro h0
    refine ⟨avg_zero fun m => ?_, avg_zero fun m => ?_, avg_zero fun m => ?_⟩ <;>
      simp [h0, len, len2]
  · intro h0
    refine ⟨avg_zero fun m => ?_, avg_zero fun m => ?_⟩ <;> simp [h0, len, len2]

/-- The hypotheses are met by the example. -/
example (argsort : List ℝ → List ℕ) : ∃ (row : Dict Quantity Val) (msd mfd : ℝ),
    Reports row .msd msd ∧ Reports row .mfd mfd ∧ msd ^ 2 ≤ mfd := by
  obtain ⟨D, D', row, d, r, h, hd, hr, -⟩ := exRun argsort
  obtain ⟨md, msd, mfd, mr, msr, -, h2, h3, -, -, -, -, -, -, -, -, -, h9, -⟩ :=
    C33_moments h (by norm_num) d r hd hr
  exact ⟨row, msd, mfd, h2, h3, h9⟩

/-- **C34**, alpha. -/
theorem C34_alpha {argsort : List ℝ → List ℕ} {D D' : Dyn} {t : ℤ} {pos : List V3}
    {ori : Option (List Quat)} {sc : Bool} {row : Dict Quantity Val}
    (h : D.computeAll argsort t pos ori sc = (D', .ok row))
    {N : ℕ} (hN : 0 < N) (d : Fin N → V3) (hd : D'.motion.deltaT = List.ofFn d) :
    ((∀ m, d m = 0) → ReportsNaN row .alpha) ∧
    ((∃ m, d m ≠ 0) → ∃ x, Reports row .alpha x ∧ -(1 / 2) ≤ x ∧
      x = avg (fun m => len (d m) ^ 4) / (2 * avg (fun m => len (d m) ^ 2) ^ 2) - 1) := by
  obtain ⟨-, hq⟩ := computeAll_ok h
  obtain ⟨al, isf, distance, ar, ga, ov, st, hal, -, -, -, -, -, -, rfl⟩ := quantities_ok hq
  have e4 : ∀ v : V3, len v ^ 4 = len2 v ^ 2 := fun v => by rw [← len_sq]; ring
  unfold Dyn.alpha at hal
  simp only [displacement2_ofFn hd, map_ofFn', mean_ofFn] at hal
  constructor
  · intro h0
    have h1 : avg (fun m => len2 (d m)) = 0 := avg_zero fun m => by simp [h0, len2]
    have h2 : avg (fun m => len2 (d m) ^ 2) = 0 := avg_zero fun m => by simp [h0, len2]
    rw [h1, h2] at hal
    have : al = none := by
      rw [show (2 * (0 : ℝ) ^ 2) = 0 by norm_num, ratio_zero] at hal
      exact (Except.ok.inj hal).symm
    subst this
    rfl
  · rintro ⟨m, hm⟩
    have hpos : 0 < avg (fun m => len2 (d m)) :=
      avg_pos (fun m => len2_nonneg _)
        (lt_of_le_of_ne (len2_nonneg (d m)) (fun h => hm (len2_eq_zero.1 h.symm)))
    rw [ratio_of_ne (by positivity)] at hal
    obtain rfl := (Except.ok.inj hal).symm
    refine ⟨_, rfl, ?_, by simp only [e4, len_sq]⟩
    have h1 := avg_sq_le hN (fun m => len2 (d m))
    have h2 : 1 / 2 ≤ avg (fun m => len2 (d m) ^ 2) / (2 * avg (fun m => len2 (d m)) ^ 2) := by
      rw [le_div_iff₀ (by positivity)]
      linarith
    linarith

/-- The hypotheses are met by the example, with the second case. -/
example (argsort : List ℝ → List ℕ) : ∃ (row : Dict Quantity Val) (x : ℝ),
    Reports row .alpha x ∧ -(1 / 2) ≤ x := by
  obtain ⟨D, D', row, d, r, h, hd, hr, hne, -⟩ := exRun argsort
  obtain ⟨x, h1, h2, -⟩ := (C34_alpha h (by norm_num) d hd).2 ⟨0, hne⟩
  exact ⟨row, x, h1, h2⟩

/-- **C34**, alpha_rot. -/
theorem C34_alpha_rot {argsort : List ℝ → List ℕ} {D D' : Dyn} {t : ℤ} {pos : List V3}
    {ori : Option (List Quat)} {sc : Bool} {row : Dict Quantity Val}
    (h : D.computeAll argsort t pos ori sc = (D', .ok row))
    {N : ℕ} (hN : 0 < N) (r : Fin N → V3) (hr : D'.motion.deltaR = List.ofFn r) :
    ((∀ m, r m = 0) → ReportsNaN row .alpha_rot) ∧
    ((∃ m, r m ≠ 0) → ∃ x, Reports row .alpha_rot x ∧ -(2 / 3) ≤ x ∧
      x = avg (fun m => len (r m) ^ 4) / (3 * avg (fun m => len (r m) ^ 2) ^ 2) - 1) := by
  obtain ⟨-, hq⟩ := computeAll_ok h
  obtain ⟨al, isf, distance, ar, ga, ov, st, -, -, -, har, -, -, -, rfl⟩ := quantities_ok hq
  have e4 : ∀ v : V3, len v ^ 4 = len2 v ^ 2 := fun v => by rw [← len_sq]; ring
  unfold Dyn.alphaRot at har
  simp only [rotation2_ofFn hr, map_ofFn', mean_ofFn] at har
  constructor
  · intro h0
    have h1 : avg (fun m => len2 (r m)) = 0 := avg_zero fun m => by simp [h0, len2]
    have h2 : avg (fun m => len2 (r m) ^ 2) = 0 := avg_zero fun m => by simp [h0, len2]
    rw [h1, h2] at har
    have : ar = none := by
      rw [show (3 * (0 : ℝ) ^ 2) = 0 by norm_num, ratio_zero] at har
      exact (Except.ok.inj har).symm
    subst this
    rfl
  · rintro ⟨m, hm⟩
    have hpos : 0 < avg (fun m => len2 (r m)) :=
      avg_pos (fun m => len2_nonneg _)
        (lt_of_le_of_ne (len2_nonneg (r m)) (fun h => hm (len2_eq_zero.1 h.symm)))
    rw [ratio_of_ne (by positivity)] at har
    obtain rfl := (Except.ok.inj har).symm
    refine ⟨_, rfl, ?_, by simp only [e4, len_sq]⟩
    have h1 := avg_sq_le hN (fun m => len2 (r m))
    have h2 : 1 / 3 ≤ avg (fun m => len2 (r m) ^ 2) / (3 * avg (fun m => len2 (r m)) ^ 2) := by
      rw [le_div_iff₀ (by positivity)]
      linarith
    linarith

/-- The hypotheses are met by the example, with the second case. -/
example (argsort : List ℝ → List ℕ) : ∃ (row : Dict Quantity Val) (x : ℝ),
    Reports row .alpha_rot x ∧ -(2 / 3) ≤ x := by
  obtain ⟨D, D', row, d, r, h, hd, hr, -, hne⟩ := exRun argsort
  obtain ⟨x, h1, h2, -⟩ := (C34_alpha_rot h (by norm_num) r hr).2 ⟨0, hne⟩
  exact ⟨row, x, h1, h2⟩

/-- **C34**, gamma. -/
theorem C34_gamma {argsort : List ℝ → List ℕ} {D D' : Dyn} {t : ℤ} {pos : List V3}
    {ori : Option (List Quat)} {sc : Bool} {row : Dict Quantity Val}
    (h : D.computeAll argsort t pos ori sc = (D', .ok row))
    {N : ℕ} (d r : Fin N → V3) (hd : D'.motion.deltaT = List.ofFn d)
    (hr : D'.motion.deltaR = List.ofFn r) :
    (((∀ m, d m = 0) ∨ (∀ m, r m = 0)) → ReportsNaN row .gamma) ∧
    ((∃ m, d m ≠ 0) → (∃ m, r m ≠ 0) → ∃ x, Reports row .gamma x ∧ -1 ≤ x ∧
      x = avg (fun m => len (d m) ^ 2 * len (r m) ^ 2) /
        (avg (fun m => len (d m) ^ 2) * avg (fun m => len (r m) ^ 2)) - 1) := by
  obtain ⟨-, hq⟩ := computeAll_ok h
  obtain ⟨al, isf, distance, ar, ga, ov, st, -, -, -, -, hga, -, -, rfl⟩ := quantities_ok hq
  unfold Dyn.gamma at hga
  simp only [rotation2_ofFn hr, displacement2_ofFn hd, zipWith_ofFn, mean_ofFn] at hga
  constructor
  · intro h0
    have h2 : avg (fun m => len2 (d m) * len2 (r m)) = 0 := avg_zero fun m => by
      rcases h0 with h0 | h0 <;> simp [h0, len2]
    have h3 : avg (fun m => len2 (d m)) * avg (fun m => len2 (r m)) = 0 := by
      rcases h0 with h0 | h0
      · rw [avg_zero fun m => by simp [h0, len2], zero_mul]
      · rw [mul_comm, avg_zero fun m => by simp [h0, len2], zero_mul]
    rw [h2, h3, ratio_zero] at hga
    obtain rfl := (Except.ok.inj hga).symm
    rfl
  · rintro ⟨m, hm⟩ ⟨m', hm'⟩
    have hpos : 0 < avg (fun m => len2 (d m)) :=
      avg_pos (fun m => len2_nonneg _)
        (lt_of_le_of_ne (len2_nonneg (d m)) (fun h => hm (len2_eq_zero.1 h.symm)))
    have hpos' : 0 < avg (fun m => len2 (r m)) :=
      avg_pos (fun m => len2_nonneg _)
        (lt_of_le_of_ne (len2_nonneg (r m')) (fun h => hm' (len2_eq_zero.1 h.symm)))
    rw [ratio_of_ne (by positivity)] at hga
    obtain rfl := (Except.ok.inj hga).symm
    refine ⟨_, rfl, ?_, by simp only [len_sq]⟩
    have : 0 ≤ avg (fun m => len2 (d m) * len2 (r m)) :=
      avg_nonneg fun m => mul_nonneg (len2_nonneg _) (len2_nonneg _)
    have := div_nonneg this (mul_pos hpos hpos').le
    linarith

/-- The hypotheses are met by the example, with the second case. -/
example (argsort : List ℝ → List ℕ) : ∃ (row : Dict Quantity Val) (x : ℝ),
    Reports row .gamma x ∧ -1 ≤ x := by
  obtain ⟨D, D', row, d, r, h, hd, hr, hne, hne'⟩ := exRun argsort
  obtain ⟨x, h1, h2, -⟩ := (C34_gamma h d r hd hr).2 ⟨0, hne⟩ ⟨0, hne'⟩
  exact ⟨row, x, h1, h2⟩

/-- **C34**, no exception: a division of zero by zero never leaves `compute_all` as a
FloatingPointError. -/
theorem C34_no_exception (argsort : List ℝ → List ℕ) (D : Dyn) (t : ℤ) (pos : List V3)
    (ori : Option (List Quat)) (sc : Bool)
    (hlen : D.motion.deltaT.length = D.motion.deltaR.length) :
    (D.computeAll argsort t pos ori sc).2 ≠ .error .floatingPointError := by
  unfold Dyn.computeAll
  rcases hadd : D.add pos ori with ⟨D', _ | e⟩
  · simp only
    obtain ⟨hT, hR⟩ := add_lengths hadd
    obtain ⟨d, hd⟩ := exists_ofFn hT
    obtain ⟨r, hr⟩ := exists_ofFn (hR.trans hlen.symm)
    obtain ⟨al, hal⟩ := alpha_ok hd
    obtain ⟨ar, har⟩ := alphaRot_ok hr
    obtain ⟨ga, hga⟩ := gamma_ok hd hr
    intro h
    rw [quantities_eq, hal, har, hga] at h
    exact quantities_error h
  · simp only
    intro h
    exact add_error hadd (Except.error.inj h)

/-- Two molecules that have not moved. -/
example (argsort : List ℝ → List ℕ) : ∃ D, Dyn.new 0 [1, 1, 1] [(0, 0, 0), (0, 0, 0)] none none none = .ok D ∧
    (D.computeAll argsort 1 [(0, 0, 0), (0, 0, 0)] none true).2 ≠ .error .floatingPointError :=
  ⟨_, rfl, C34_no_exception argsort _ 1 _ none true rfl⟩

/-- **C35**.  rot1 and rot2 are means of cosines of the rotation and of twice the rotation; both are
in [-1, 1], and 1 when nothing turned. -/
theorem C35_rotational {argsort : List ℝ → List ℕ} {D D' : Dyn} {t : ℤ} {pos : List V3}
    {ori : Option (List Quat)} {sc : Bool} {row : Dict Quantity Val}
    (h : D.computeAll argsort t pos ori sc = (D', .ok row))
    {N : ℕ} (hN : 0 < N) (r : Fin N → V3) (hr : D'.motion.deltaR = List.ofFn r) :
    ∃ x1 x2 : ℝ, Reports row .rot1 x1 ∧ Reports row .rot2 x2 ∧
      x1 = avg (fun m => Real.cos (len (r m))) ∧ x2 = avg (fun m => Real.cos (2 * len (r m))) ∧
      -1 ≤ x1 ∧ x1 ≤ 1 ∧ -1 ≤ x2 ∧ x2 ≤ 1 ∧ ((∀ m, r m = 0) → x1 = 1 ∧ x2 = 1) := by
  obtain ⟨-, hq⟩ := computeAll_ok h
  obtain ⟨al, isf, distance, ar, ga, ov, st, -, -, -, -, -, -, -, rfl⟩ := quantities_ok hq
  refine ⟨_, _, rfl, rfl, rot1_eq hr, rot2_eq hr, ?_⟩
  rw [rot1_eq hr, rot2_eq hr]
  refine ⟨le_avg hN fun m => Real.neg_one_le_cos _, avg_le hN fun m => Real.cos_le_one _,
    le_avg hN fun m => Real.neg_one_le_cos _, avg_le hN fun m => Real.cos_le_one _, fun h0 => ?_⟩
  have e : ∀ m, len (r m) = 0 := fun m => by simp [h0, len, len2]
  simp only [e, mul_zero, Real.cos_zero, avg_const hN, and_self]

/-- The hypotheses are met by the example. -/
example (argsort : List ℝ → List ℕ) : ∃ (row : Dict Quantity Val) (x : ℝ),
    Reports row .rot1 x ∧ -1 ≤ x ∧ x ≤ 1 := by
  obtain ⟨D, D', row, d, r, h, hd, hr, -⟩ := exRun argsort
  obtain ⟨x1, x2, h1, -, -, -, h5, h6, -⟩ := C35_rotational h (by norm_num) r hr
  exact ⟨row, x1, h1, h5, h6⟩

/-- **C35**, the intermediate scattering function of an object made by `Dynamics(…)` with a wave
number `k` and a resolution of at least one: the average over the directions and molecules. -/
theorem C35_isf {argsort : List ℝ → List ℕ} {D0 D D' : Dyn} {t0 : ℤ} {box : List ℝ}
    {p0 : List V3} {o0 : Option (List Quat)} {mol : Option Mol} {k : ℝ} {res : ℕ}
    (hres : 0 < res) (hnew : Dyn.new t0 box p0 o0 mol (some k) res = .ok D0) {fs : List Frame}
    (hadd : addFrames D0 fs = .ok D) {t : ℤ} {pos : List V3}
    {ori : Option (List Quat)} {row : Dict Quantity Val}
    (h : D.computeAll argsort t pos ori true = (D', .ok row))
    {N : ℕ} (hN : 0 < N) (d : Fin N → V3) (hd : D'.motion.deltaT = List.ofFn d) :
    ∃ x : ℝ, Reports row .scattering_function x ∧
      x = avg (fun j : Fin res => avg (fun m => Real.cos (k *
        (Real.cos (2 * Real.pi * j / res) * (d m).1 +
          Real.sin (2 * Real.pi * j / res) * (d m).2.1)))) ∧
      -1 ≤ x ∧ x ≤ 1 ∧ ((∀ m, d m = 0) → x = 1) := by
  obtain ⟨hadd', hq⟩ := computeAll_ok h
  obtain ⟨al, isf, distance, ar, ga, ov, st, -, hisf, -, -, -, -, -, rfl⟩ := quantities_ok hq
  have hw0 := new_wave hnew
  have hw1 := addFrames_wave hadd
  have hw2 := add_wave hadd'
  have hk : D'.waveNumber = some k := by rw [hw2.1, hw1.1, hw0.1]
  have hv : D'.waveVector = some (createWaveVector k res) := by rw [hw2.2, hw1.2, hw0.2]; rfl
  unfold isfVal at hisf
  rw [hk] at hisf
  simp only [Option.isSome_some, Bool.and_self, if_true] at hisf
  rw [isf_eq hv hd] at hisf
  obtain rfl := (Except.ok.inj hisf).symm
  refine ⟨_, rfl, rfl, ?_, ?_, ?_⟩
  · exact le_avg hres fun j => le_avg hN fun m => Real.neg_one_le_cos _
  · exact avg_le hres fun j => avg_le hN fun m => Real.cos_le_one _
  · intro h0
    simp [h0, avg_const hres, avg_const hN]

/-- The hypotheses of `C35_isf` are met by the example. -/
example (argsort : List ℝ → List ℕ) : ∃ (D0 D D' : Dyn) (row : Dict Quantity Val)
    (d : Fin 10 → V3),
    Dyn.new 0 [10, 10, 1, 0, 0, 0] (frame exS exO 0).1 (frame exS exO 0).2 (some exMol) (some 2) 360 =
      .ok D0 ∧ addFrames D0 (frames exS exO 1 2) = .ok D ∧
    D.computeAll argsort 5 (frame exS exO 2).1 (frame exS exO 2).2 true = (D', .ok row) ∧
    D'.motion.deltaT = List.ofFn d := by
  have h := new_track (N := 10) (by omega) (box := [10, 10, 1, 0, 0, 0]) (mol := some exMol) rfl
    (some 2) 360 0 exS exO exO_unit 1
  cases hn : Dyn.new 0 [10, 10, 1, 0, 0, 0] (frame exS exO 0).1 (frame exS exO 0).2 (some exMol)
      (some 2) 360 with
  | error e => rw [hn] at h; cases h
  | ok D0 =>
    rw [hn] at h
    obtain ⟨row, hrow⟩ := quantities_succeeds (D := dynAfter _ (some exMol) (some 2) 360 0 exS exO 2)
      argsort 5 true (N := 10) le_rfl rfl rfl rfl (by simp [dynAfter]) (by simp [dynAfter])
      (by simp [dynAfter, exMol])
    exact ⟨D0, _, _, row, _, rfl, h,
      (computeAll_dynAfter argsort _ _ _ _ _ _ _ _ exO_unit 1 true).trans (by rw [hrow]), rfl⟩

/-- **C38**.  Whatever the options, the dictionary has the fifteen quantities and no other. -/
theorem C38_keys {argsort : List ℝ → List ℕ} {D D' : Dyn} {t : ℤ} {pos : List V3}
    {ori : Option (List Quat)} {sc : Bool} {row : Dict Quantity Val}
    (h : D.computeAll argsort t pos ori sc = (D', .ok row)) :
    row.map Prod.fst = [.time, .mean_displacement, .msd, .mfd, .alpha, .scattering_function,
      .com_struct, .mean_rotation, .msr, .rot1, .rot2, .alpha_rot, .gamma, .overlap, .struct] ∧
    Dict.get? row .time = some (.int (t - D.timestep)) := by
  obtain ⟨hadd, hq⟩ := computeAll_ok h
  obtain ⟨al, isf, distance, ar, ga, ov, st, -, -, -, -, -, -, -, rfl⟩ := quantities_ok hq
  refine ⟨rfl, ?_⟩
  have : D'.timestep = D.timestep := by
    unfold Dyn.add at hadd
    simp only [Prod.mk.injEq] at hadd
    rw [← hadd.1]
  simp [rowOf, Dict.get?, Dyn.timeDelta, this]

/-- The hypothesis is met by the example. -/
example (argsort : List ℝ → List ℕ) : ∃ row : Dict Quantity Val, row.length = 15 := by
  obtain ⟨D, D', row, d, r, h, -⟩ := exRun argsort
  exact ⟨row, by simpa using congrArg List.length (C38_keys h).1⟩

/-- **C38**, when the optional quantities are NaN. -/
theorem C38_nan {argsort : List ℝ → List ℕ} {D D' : Dyn} {t : ℤ} {pos : List V3}
    {ori : Option (List Quat)} {sc : Bool} {row : Dict Quantity Val}
    (h : D.computeAll argsort t pos ori sc = (D', .ok row)) :
    (ReportsNaN row .scattering_function ↔ ¬ (sc = true ∧ D.waveNumber.isSome)) ∧
    (ReportsNaN row .com_struct ↔ D.waveNumber = none) ∧
    (ReportsNaN row .struct ↔
      ¬ (D.waveNumber.isSome ∧ D.molVector.isSome ∧ ori.isSome)) := by
  obtain ⟨hadd, hq⟩ := computeAll_ok h
  obtain ⟨al, isf, distance, ar, ga, ov, st, -, hisf, hdist, -, -, -, hst, rfl⟩ := quantities_ok hq
  have hw := add_wave hadd
  obtain ⟨hmol, hori⟩ := add_mol_ori hadd
  have hdw : distance = none ↔ D.waveNumber = none := by
    unfold Dyn.distance at hdist
    rw [hw.1] at hdist
    cases hk : D.waveNumber with
    | none => rw [hk] at hdist; simp at hdist; simp [← hdist]
    | some k =>
      rw [hk] at hdist
      simp only at hdist
      split at hdist
      · cases hdist
      · obtain rfl := Except.ok.inj hdist
        simp
  have hds : distance.isSome = D.waveNumber.isSome := by
    cases h1 : distance <;> cases h2 : D.waveNumber <;> simp_all
  refine ⟨?_, ?_, ?_⟩
  · have : ReportsNaN (rowOf (D'.timeDelta t) (mean D'.displacement) D'.msd D'.mfd al isf
        (comVal D' distance) D'.meanRotation D'.msr D'.rot1 D'.rot2 ar ga ov st)
        .scattering_function ↔ isf = none := by
      unfold ReportsNaN
      simp [rowOf, Dict.get?]
    rw [this]
    unfold isfVal at hisf
    rw [hw.1] at hisf
    split at hisf
    · rename_i hc
      cases hi : D'.isf with
      | error e => rw [hi] at hisf; cases hisf
      | ok x =>
        rw [hi] at hisf
        obtain rfl := Except.ok.inj hisf
        rw [Bool.and_eq_true] at hc
        simp [hc.1, hc.2]
    · rename_i hc
      obtain rfl := (Except.ok.inj hisf).symm
      rw [Bool.and_eq_true] at hc
      simpa using hc
  · have : ReportsNaN (rowOf (D'.timeDelta t) (mean D'.displacement) D'.msd D'.mfd al isf
        (comVal D' distance) D'.meanRotation D'.msr D'.rot1 D'.rot2 ar ga ov st)
        .com_struct ↔ comVal D' distance = none := by
      unfold ReportsNaN
      simp [rowOf, Dict.get?]
    rw [this, ← hdw]
    cases distance with
    | none => simp [comVal]
    | some x => simp [comVal, structuralRelax]
  · have : ReportsNaN (rowOf (D'.timeDelta t) (mean D'.displacement) D'.msd D'.mfd al isf
        (comVal D' distance) D'.meanRotation D'.msr D'.rot1 D'.rot2 ar ga ov st)
        .struct ↔ st = none := by
      unfold ReportsNaN
      simp [rowOf, Dict.get?]
    rw [this]
    unfold structVal at hst
    rw [hds, hmol, hori] at hst
    split at hst
    · rename_i hc
      cases hi : D'.structRelax with
      | error e => rw [hi] at hst; cases hst
      | ok x =>
        rw [hi] at hst
        obtain rfl := Except.ok.inj hst
        rw [Bool.and_eq_true, Bool.and_eq_true] at hc
        simp [hc.1.1, hc.1.2, hc.2]
    · rename_i hc
      obtain rfl := (Except.ok.inj hst).symm
      rw [Bool.and_eq_true, Bool.and_eq_true] at hc
      simpa [and_assoc] using hc

/-- The hypothesis is met by the example. -/
example (argsort : List ℝ → List ℕ) : ∃ (D : Dyn) (row : Dict Quantity Val),
    ReportsNaN row .com_struct ↔ D.waveNumber = none := by
  obtain ⟨D, D', row, d, r, h, -⟩ := exRun argsort
  exact ⟨D, row, (C38_nan h).2.1⟩

/-- **C38**, it always succeeds: for a trajectory of ten molecules or more with unit orientations
(or none), a cell, a nonzero wave number (or none) and a molecule with particles (or none). -/
theorem C38_succeeds {N : ℕ} (hN : 10 ≤ N) (argsort : List ℝ → List ℕ) (c : Cell)
    (mol : Option Mol) (hmol : ∀ m, mol = some m → m.positions ≠ []) (k : Option ℝ)
    (hk : k ≠ some 0) (res : ℕ) (t0 t : ℤ) (s : ℕ → Fin N → V3)
    (o : ℕ → Option (Fin N → Quat)) (ho : Unit o) (n : ℕ) (sc : Bool) :
    ∃ row, rowAt argsort c.array mol k res t0 (frame s o 0) (frames s o 1 (n + 1)) t
      (frame s o (n + 1)) sc = .ok row := by
  obtain ⟨b, hb⟩ : ∃ b, createFreudBox c.array (is2d mol) = .ok b := ⟨_, rfl⟩
  rw [rowAt_eq (by omega) argsort hb k res t0 t s o ho n sc]
  apply quantities_succeeds argsort t sc hN rfl rfl rfl
  · simp [dynAfter]
  · exact hk
  · intro h
    simp only [dynAfter, Option.map_eq_some_iff] at h
    obtain ⟨m, hm, hp⟩ := h
    exact hmol m hm hp

/-- The ten molecules of the example, in a square cell. -/
example (argsort : List ℝ → List ℕ) : ∃ row, rowAt argsort [10, 10, 1, 0, 0, 0] (some exMol) (some 2) 360 0
    (frame exS exO 0) (frames exS exO 1 3) 7 (frame exS exO 3) true = .ok row :=
  C38_succeeds le_rfl argsort ⟨10, 10, 1, 0, 0, 0, true⟩ (some exMol)
    (by intro m hm; cases hm; simp [exMol]) (some 2) (by simp) 360 0 7 exS exO exO_unit 2 true

/-- **C38.** The molecule ids are 0, 1, …, one for each of the per molecule values, before and after
any frame. -/
theorem C38_molid {t : ℤ} {box : List ℝ} {pos : List V3} {ori : Option (List Quat)}
    {mol : Option Mol} {k : Option ℝ} {res : ℕ} {D : Dyn}
    (h : Dyn.new t box pos ori mol k res = .ok D) :
    D.getMolid.length = pos.length ∧ D.getMolid.length = D.displacement.length ∧
    D.len = pos.length ∧ (∀ i, i < pos.length → D.getMolid[i]? = some i) ∧
    ∀ pos' ori', (D.add pos' ori').1.getMolid = D.getMolid := by
  have hD : D.numParticles = pos.length ∧ D.motion.deltaT.length = pos.length := by
    unfold Dyn.new at h
    split at h
    · cases h
    simp only at h
    generalize (match mol with
      | none => true
      | some m => decide (m.dimensions = 2)) = b2 at h
    split at h
    · cases h
    split at h
    · cases h
    next m hm =>
    cases h
    refine ⟨rfl, ?_⟩
    unfold Tracked.new at hm
    split at hm
    · split at hm
      · cases hm
      · cases hm; simp
    · cases hm; simp
  refine ⟨by simp [Dyn.getMolid, hD.1], ?_, hD.1, ?_, fun _ _ => rfl⟩
  · simp [Dyn.getMolid, Dyn.displacement, hD.1, hD.2]
  · intro i hi
    simp [Dyn.getMolid, hD.1, hi]

example : ∃ D, Dyn.new 0 [1, 1, 1] [(0, 0, 0), (0, 0, 0)] none none none = .ok D := ⟨_, rfl⟩

end Verif.Dynamics
