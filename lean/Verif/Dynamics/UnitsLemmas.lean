import Mathlib.Tactic.FieldSimp
import Verif.Dynamics.UnitsSpec
import Verif.Dynamics.RunLemmas
import Verif.Dynamics.Particles
/-!
# Lemmas for a change of the unit of length
-/

namespace Verif.Dynamics

open Verif.Motion

variable {a : ℝ}

theorem wrap_rescaled (ha : a ≠ 0) (b : Box) (v : V3) :
    Box.wrap ⟨a * b.Lx, a * b.Ly, a * b.Lz, b.xy, b.xz, b.yz, b.is2D⟩ (a • v) = a • b.wrap v := by
  have e : Box.frac ⟨a * b.Lx, a * b.Ly, a * b.Lz, b.xy, b.xz, b.yz, b.is2D⟩ (a • v) = b.frac v := by
    unfold Box.frac
    simp only [Prod.smul_fst, Prod.smul_snd, smul_eq_mul]
    rw [show a * v.1 - ((b.xz - b.yz * b.xy) * (a * v.2.2) + b.xy * (a * v.2.1)) =
        a * (v.1 - ((b.xz - b.yz * b.xy) * v.2.2 + b.xy * v.2.1)) by ring,
      show a * v.2.1 - b.yz * (a * v.2.2) = a * (v.2.1 - b.yz * v.2.2) by ring,
      mul_div_mul_left _ _ ha, mul_div_mul_left _ _ ha, mul_div_mul_left _ _ ha]
  unfold Box.wrap
  rw [e]
  unfold Box.coord
  ext <;> simp only [Prod.smul_fst, Prod.smul_snd, smul_eq_mul]
  · ring
  · ring
  · split <;> ring

theorem sumT_rescaled (ha : a ≠ 0) {N : ℕ} (b : Box) (s : ℕ → Fin N → V3) (n : ℕ) :
    sumT ⟨a * b.Lx, a * b.Ly, a * b.Lz, b.xy, b.xz, b.yz, b.is2D⟩ (fun i m => a • s i m) n =
      fun m => a • sumT b s n m := by
  funext m
  unfold sumT
  simp only [← smul_sub, wrap_rescaled ha, ← Finset.smul_sum, smul_neg]

theorem len2_smul (v : V3) : len2 (a • v) = a ^ 2 * len2 v := by
  unfold len2
  simp only [Prod.smul_fst, Prod.smul_snd, smul_eq_mul]
  ring

theorem len_smul (ha : 0 < a) (v : V3) : len (a • v) = a * len v := by
  unfold len
  rw [len2_smul, Real.sqrt_mul (by positivity), Real.sqrt_sq ha.le]

theorem avg_mul {N : ℕ} (c : ℝ) (f : Fin N → ℝ) : avg (fun m => c * f m) = c * avg f := by
  unfold avg
  rw [← Finset.mul_sum, mul_div_assoc]

theorem turned_smul (q : Quat) (v : V3) : turned q (a • v) = a • turned q v := by
  unfold turned
  ext <;> simp only [Prod.smul_fst, Prod.smul_snd, smul_eq_mul] <;> ring

theorem ratio_rescaled {c : ℝ} (hc : c ≠ 0) (x y : ℝ) : ratioMinusOne (c * x) (c * y) = ratioMinusOne x y := by
  unfold ratioMinusOne fdiv
  simp only [ne_eq, mul_eq_zero, hc, false_or, mul_div_mul_left _ _ hc]

/-- Two objects that differ by the unit of length. -/
structure Rescaled (a : ℝ) {N : ℕ} (D D' : Dyn) (d r : Fin N → V3) : Prop where
  hd : D.motion.deltaT = List.ofFn d
  hr : D.motion.deltaR = List.ofFn r
  hd' : D'.motion.deltaT = List.ofFn (fun m => a • d m)
  hr' : D'.motion.deltaR = List.ofFn r
  ht : D'.timestep = D.timestep
  hk : D'.waveNumber = D.waveNumber.map (· / a)
  hw : D'.waveVector = D.waveVector.map (List.map (fun w => (w.1 / a, w.2 / a)))
  hv : D'.molVector = D.molVector.map (List.map (fun v => a • v))
  hn : D.numParticles = N
  hn' : D'.numParticles = N
  ho : D'.motion.prevOri.isSome = D.motion.prevOri.isSome

section

variable {N : ℕ} {D D' : Dyn} {d r : Fin N → V3} (h : Rescaled a D D' d r) (ha : 0 < a)

include h ha

theorem Rescaled.alpha : D'.alpha = D.alpha := by
  unfold Dyn.alpha
  simp only [displacement2_ofFn h.hd, displacement2_ofFn h.hd', map_ofFn', mean_ofFn, len2_smul, mul_pow, avg_mul]
  have : (2 : ℝ) * ((a ^ 2) ^ 2 * avg (fun m => len2 (d m)) ^ 2) = (a ^ 2) ^ 2 * (2 * avg (fun m => len2 (d m)) ^ 2) := by
    ring
  rw [this, ratio_rescaled (by positivity)]

theorem Rescaled.gamma : D'.gamma = D.gamma := by
  unfold Dyn.gamma
  simp only [displacement2_ofFn h.hd, displacement2_ofFn h.hd', rotation2_ofFn h.hr, rotation2_ofFn h.hr',
    zipWith_ofFn, mean_ofFn, len2_smul, mul_assoc, avg_mul]
  rw [ratio_rescaled (by positivity)]

omit ha in
theorem Rescaled.alphaRot : D'.alphaRot = D.alphaRot := by
  unfold Dyn.alphaRot Dyn.rotation2
  rw [h.hr, h.hr']

theorem Rescaled.isf (sc : Bool) : isfVal D' sc = isfVal D sc := by
  unfold isfVal Dyn.isf
  rw [h.hk, h.hw, h.hd, h.hd', Option.isSome_map]
  cases D.waveVector with
  | none => rfl
  | some ws =>
    simp only [Option.map_some, map_ofFn', List.flatMap_map, Prod.smul_fst, Prod.smul_snd, smul_eq_mul]
    have (x y : ℝ) : x / a * (a * y) = x * y := by field_simp
    simp only [this]

theorem Rescaled.distance : D'.distance = D.distance.map (Option.map (a * ·)) := by
  unfold Dyn.distance
  rw [h.hk]
  cases D.waveNumber with
  | none => rfl
  | some k =>
    simp only [Option.map_some, div_eq_zero_iff, ha.ne', or_false]
    split
    · rfl
    · simp only [Except.map, Option.map_some]
      congr 2
      field_simp

theorem Rescaled.com (x : Option ℝ) : comVal D' (x.map (a * ·)) = comVal D x := by
  unfold comVal
  cases x with
  | none => rfl
  | some x =>
    simp only [Option.map_some]
    rw [displacement_ofFn h.hd, displacement_ofFn h.hd', map_ofFn', map_ofFn']
    unfold structuralRelax
    simp only [Bool.false_and, Bool.false_eq_true, if_false, List.length_ofFn]
    rw [← List.countP_eq_length_filter, ← List.countP_eq_length_filter]
    rw [show List.ofFn (fun i => some (len (d i))) = (List.ofFn d).map (fun v => some (len v)) from
        (map_ofFn' (fun v => some (len v)) d).symm,
      show List.ofFn (fun i => some (len (a • d i))) = (List.ofFn d).map (fun v => some (len (a • v))) from
        (map_ofFn' (fun v => some (len (a • v))) d).symm, List.countP_map, List.countP_map]
    simp only [Function.comp_def, len_smul ha, mul_lt_mul_iff_right₀ ha]

theorem Rescaled.overlap {argsort : List ℝ → List ℕ} (hs : Compares argsort) :
    mobileOverlap argsort D'.displacement D'.rotation = mobileOverlap argsort D.displacement D.rotation := by
  have e : D'.rotation = D.rotation := by unfold Dyn.rotation; rw [h.hr, h.hr']
  have e' : D'.displacement = D.displacement.map (a * ·) := by
    rw [displacement_ofFn h.hd, displacement_ofFn h.hd', map_ofFn']
    simp only [len_smul ha]
  rw [e, e']
  unfold mobileOverlap
  rw [hs D.displacement (a * ·) (strictMono_mul_left_of_pos ha), List.length_map]

theorem Rescaled.struct (hN : 0 < N) (x : Option ℝ) (hx : D.distance = .ok x) :
    structVal D' (x.map (a * ·)) = structVal D x := by
  unfold structVal
  rw [h.hv, h.ho, Option.isSome_map, Option.isSome_map]
  split
  case isFalse => rfl
  case isTrue hc =>
    congr 1
    simp only [Bool.and_eq_true] at hc
    obtain ⟨⟨c1, c2⟩, -⟩ := hc
    obtain ⟨dist, rfl⟩ := Option.isSome_iff_exists.1 c1
    obtain ⟨mv, hmv⟩ := Option.isSome_iff_exists.1 c2
    have hdist' : D'.distance = .ok (some (a * dist)) := by rw [h.distance ha, hx]; rfl
    rcases Nat.eq_zero_or_pos mv.length with hl | hl
    · obtain rfl := List.length_eq_zero_iff.1 hl
      have hv' := h.hv
      rw [hmv] at hv'
      unfold Dyn.structRelax
      rw [hx, hdist', hmv, hv']
      unfold molecule2particles rotateAll
      simp
    · have hv : D.molVector = some (List.ofFn (fun i : Fin mv.length => mv.get i)) := by
        rw [List.ofFn_get]; exact hmv
      have hv' : D'.molVector = some (List.ofFn (fun i : Fin mv.length => a • mv.get i)) := by
        rw [h.hv, hv, Option.map_some, map_ofFn']
      rw [structRelax_ofFn hl hN D d r h.hd h.hr _ hv h.hn dist hx,
        structRelax_ofFn hl hN D' _ r h.hd' h.hr' _ hv' h.hn' _ hdist']
      simp only [turned_smul, ← smul_add, ← smul_sub, len_smul ha, mul_lt_mul_iff_right₀ ha]

/-- All quantities at once. -/
theorem Rescaled.row (hN : 0 < N) {argsort : List ℝ → List ℕ} (hs : Compares argsort) (t : ℤ) (sc : Bool) :
    D'.quantities argsort t sc = (D.quantities argsort t sc).map (rescaledRow a) := by
  have ht : D'.timeDelta t = D.timeDelta t := by unfold Dyn.timeDelta; rw [h.ht]
  rw [quantities_eq, quantities_eq, h.alpha ha, h.isf ha, h.distance ha, h.alphaRot, h.gamma ha, h.overlap ha hs, ht,
    meanDisp_eq h.hd, meanDisp_eq h.hd', msd_eq h.hd, msd_eq h.hd', mfd_eq h.hd,
    mfd_eq h.hd', meanRot_eq h.hr, meanRot_eq h.hr', msr_eq h.hr, msr_eq h.hr', rot1_eq h.hr,
    rot1_eq h.hr', rot2_eq h.hr, rot2_eq h.hr']
  simp only [len_smul ha, len2_smul, mul_pow, avg_mul]
  cases D.alpha with
  | error e => rfl
  | ok al =>
  cases isfVal D sc with
  | error e => rfl
  | ok isf =>
  cases hx : D.distance with
  | error e => rfl
  | ok x =>
  cases D.alphaRot with
  | error e => rfl
  | ok ar =>
  cases D.gamma with
  | error e => rfl
  | ok ga =>
  cases mobileOverlap argsort D.displacement D.rotation with
  | error e => rfl
  | ok ov =>
  simp only [bind, Except.bind, Except.map, h.struct ha hN x hx, h.com ha x]
  cases structVal D x with
  | error e => rfl
  | ok st =>
    simp only [pure, Except.pure, rowOf, rescaledRow, List.map_cons, List.map_nil, Val.rescaled, lengthPower, pow_zero,
      one_mul, pow_one, Option.map_some, Option.map_id', ← pow_mul]

end

end Verif.Dynamics
