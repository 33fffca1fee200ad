import Mathlib.Algebra.Order.Chebyshev
import Mathlib.Tactic.Linarith
import Mathlib.Tactic.Ring
import Mathlib.Tactic.FieldSimp
import Mathlib.Tactic.Positivity
import Verif.Dynamics.RowLemmas
import Verif.Dynamics.Spec
import Verif.Motion.Lemmas
/-!
# Lemmas on the quantities of `Dynamics`
-/

namespace Verif.Dynamics

open Verif.Motion

theorem sq3_eq (v : V3) : sq3 v = len2 v := by
  unfold sq3 len2; ring

theorem norm3_eq (v : V3) : norm3 v = len v := by
  unfold norm3 len len2
  congr 1; ring

theorem len2_nonneg (v : V3) : 0 ≤ len2 v := by
  unfold len2
  nlinarith [mul_self_nonneg v.1, mul_self_nonneg v.2.1, mul_self_nonneg v.2.2]

theorem len_nonneg (v : V3) : 0 ≤ len v := Real.sqrt_nonneg _

theorem len_sq (v : V3) : len v ^ 2 = len2 v := Real.sq_sqrt (len2_nonneg v)

theorem len2_eq_zero {v : V3} : len2 v = 0 ↔ v = 0 := by
  constructor
  · intro h
    unfold len2 at h
    obtain ⟨x, y, z⟩ := v
    simp only at h
    have hx := mul_self_nonneg x
    have hy := mul_self_nonneg y
    have hz := mul_self_nonneg z
    have h1 : x * x = 0 := by linarith
    have h2 : y * y = 0 := by linarith
    have h3 : z * z = 0 := by linarith
    rw [mul_self_eq_zero] at h1 h2 h3
    subst h1; subst h2; subst h3
    rfl
  · rintro rfl
    simp [len2]

theorem mean_ofFn {N : ℕ} (f : Fin N → ℝ) : mean (List.ofFn f) = avg f := by
  unfold mean avg
  rw [List.sum_ofFn, List.length_ofFn]

section avg
variable {N : ℕ}

theorem avg_nonneg {f : Fin N → ℝ} (h : ∀ m, 0 ≤ f m) : 0 ≤ avg f := by
  unfold avg
  exact div_nonneg (Finset.sum_nonneg (fun m _ => h m)) (Nat.cast_nonneg N)

theorem avg_zero {f : Fin N → ℝ} (h : ∀ m, f m = 0) : avg f = 0 := by
  unfold avg
  simp [h]

theorem avg_const (hN : 0 < N) (c : ℝ) : avg (fun _ : Fin N => c) = c := by
  have : (N : ℝ) ≠ 0 := by exact_mod_cast hN.ne'
  unfold avg
  simp
  field_simp

theorem avg_pos {f : Fin N → ℝ} (h : ∀ m, 0 ≤ f m) {m : Fin N} (hm : 0 < f m) : 0 < avg f := by
  unfold avg
  have hN : 0 < N := Fin.pos m
  apply div_pos
  · exact Finset.sum_pos' (fun m _ => h m) ⟨m, Finset.mem_univ m, hm⟩
  · exact_mod_cast hN

theorem avg_mono {f g : Fin N → ℝ} (h : ∀ m, f m ≤ g m) : avg f ≤ avg g := by
  unfold avg
  exact div_le_div_of_nonneg_right (Finset.sum_le_sum (fun m _ => h m)) (Nat.cast_nonneg N)

theorem avg_le {f : Fin N → ℝ} (hN : 0 < N) {c : ℝ} (h : ∀ m, f m ≤ c) : avg f ≤ c := by
  have := avg_mono (g := fun _ => c) h
  rwa [avg_const hN] at this

theorem le_avg {f : Fin N → ℝ} (hN : 0 < N) {c : ℝ} (h : ∀ m, c ≤ f m) : c ≤ avg f := by
  have := avg_mono (f := fun _ => c) h
  rwa [avg_const hN] at this

/-- The square of the mean is at most the mean of the squares. -/
theorem avg_sq_le (hN : 0 < N) (f : Fin N → ℝ) : avg f ^ 2 ≤ avg (fun m => f m ^ 2) := by
  have hN' : (0 : ℝ) < N := by exact_mod_cast hN
  have h := sq_sum_le_card_mul_sum_sq (s := (Finset.univ : Finset (Fin N))) (f := f)
  rw [Finset.card_univ, Fintype.card_fin] at h
  unfold avg
  rw [div_pow, div_le_div_iff₀ (by positivity) hN']
  nlinarith

theorem avg_perm (π : Equiv.Perm (Fin N)) (f : Fin N → ℝ) : avg (fun m => f (π m)) = avg f := by
  unfold avg
  rw [Equiv.sum_comp π f]

end avg

/-! ## `compute_all` succeeded -/

theorem computeAll_ok {argsort : List ℝ → List ℕ} {D D' : Dyn} {t : ℤ} {pos : List V3}
    {ori : Option (List Quat)} {sc : Bool} {row : Dict Quantity Val}
    (h : D.computeAll argsort t pos ori sc = (D', .ok row)) :
    D.add pos ori = (D', none) ∧ D'.quantities argsort t sc = .ok row := by
  unfold Dyn.computeAll at h
  rcases hadd : D.add pos ori with ⟨D1, _ | e⟩
  · rw [hadd] at h
    simp only [Prod.mk.injEq] at h
    obtain ⟨rfl, h⟩ := h
    exact ⟨rfl, h⟩
  · rw [hadd] at h
    simp at h

/-- The values in a dictionary that was computed. -/
theorem quantities_ok {argsort : List ℝ → List ℕ} {d : Dyn} {t : ℤ} {sc : Bool}
    {row : Dict Quantity Val} (h : d.quantities argsort t sc = .ok row) :
    ∃ al isf distance ar ga ov st, d.alpha = .ok al ∧ isfVal d sc = .ok isf ∧
      d.distance = .ok distance ∧ d.alphaRot = .ok ar ∧ d.gamma = .ok ga ∧
      mobileOverlap argsort d.displacement d.rotation = .ok ov ∧
      structVal d distance = .ok st ∧
      row = rowOf (d.timeDelta t) (mean d.displacement) d.msd d.mfd al isf (comVal d distance)
        d.meanRotation d.msr d.rot1 d.rot2 ar ga ov st := by
  rw [quantities_eq] at h
  revert h
  cases d.alpha with
  | error e => intro h; cases h
  | ok al =>
  cases isfVal d sc with
  | error e => intro h; cases h
  | ok isf =>
  cases d.distance with
  | error e => intro h; cases h
  | ok distance =>
  cases d.alphaRot with
  | error e => intro h; cases h
  | ok ar =>
  cases d.gamma with
  | error e => intro h; cases h
  | ok ga =>
  cases mobileOverlap argsort d.displacement d.rotation with
  | error e => intro h; cases h
  | ok ov =>
  cases hst : structVal d distance with
  | error e => intro h; simp [bind, Except.bind, hst] at h
  | ok st =>
  intro h
  simp [bind, Except.bind, pure, Except.pure, hst] at h
  exact ⟨al, isf, distance, ar, ga, ov, st, rfl, rfl, rfl, rfl, rfl, rfl, hst, h.symm⟩

/-! ## The quantities as averages -/

section values
variable {N : ℕ} {D : Dyn} {d r : Fin N → V3}

theorem displacement2_ofFn (hd : D.motion.deltaT = List.ofFn d) :
    D.displacement2 = List.ofFn (fun m => len2 (d m)) := by
  unfold Dyn.displacement2
  rw [hd, map_ofFn']
  simp only [sq3_eq]

theorem displacement_ofFn (hd : D.motion.deltaT = List.ofFn d) :
    D.displacement = List.ofFn (fun m => len (d m)) := by
  unfold Dyn.displacement
  rw [hd, map_ofFn']
  simp only [norm3_eq]

theorem rotation2_ofFn (hr : D.motion.deltaR = List.ofFn r) :
    D.rotation2 = List.ofFn (fun m => len2 (r m)) := by
  unfold Dyn.rotation2
  rw [hr, map_ofFn']
  simp only [sq3_eq]

theorem rotation_ofFn (hr : D.motion.deltaR = List.ofFn r) :
    D.rotation = List.ofFn (fun m => len (r m)) := by
  unfold Dyn.rotation
  rw [hr, map_ofFn']
  simp only [norm3_eq]

theorem msd_eq (hd : D.motion.deltaT = List.ofFn d) : D.msd = avg (fun m => len2 (d m)) := by
  unfold Dyn.msd
  rw [displacement2_ofFn hd, mean_ofFn]

theorem mfd_eq (hd : D.motion.deltaT = List.ofFn d) : D.mfd = avg (fun m => len2 (d m) ^ 2) := by
  unfold Dyn.mfd
  rw [displacement2_ofFn hd, map_ofFn', mean_ofFn]

theorem meanDisp_eq (hd : D.motion.deltaT = List.ofFn d) :
    mean D.displacement = avg (fun m => len (d m)) := by
  rw [displacement_ofFn hd, mean_ofFn]

theorem msr_eq (hr : D.motion.deltaR = List.ofFn r) : D.msr = avg (fun m => len2 (r m)) := by
  unfold Dyn.msr
  rw [rotation2_ofFn hr, mean_ofFn]

theorem meanRot_eq (hr : D.motion.deltaR = List.ofFn r) :
    D.meanRotation = avg (fun m => len (r m)) := by
  unfold Dyn.meanRotation
  rw [rotation_ofFn hr, mean_ofFn]

theorem rot1_eq (hr : D.motion.deltaR = List.ofFn r) :
    D.rot1 = avg (fun m => Real.cos (len (r m))) := by
  unfold Dyn.rot1
  rw [rotation_ofFn hr, map_ofFn', mean_ofFn]

theorem rot2_eq (hr : D.motion.deltaR = List.ofFn r) :
    D.rot2 = avg (fun m => Real.cos (2 * len (r m))) := by
  unfold Dyn.rot2
  rw [rotation_ofFn hr, map_ofFn', mean_ofFn]
  simp only [Real.cos_two_mul]

end values

/-! ## Division -/

theorem ratio_of_ne {a b : ℝ} (hb : b ≠ 0) : ratioMinusOne a b = .ok (some (a / b - 1)) := by
  unfold ratioMinusOne fdiv
  simp [hb]

theorem ratio_zero : ratioMinusOne 0 0 = .ok none := by
  unfold ratioMinusOne fdiv
  simp

end Verif.Dynamics
