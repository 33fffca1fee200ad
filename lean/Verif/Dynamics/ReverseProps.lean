import Verif.Dynamics.AxesLemmas
import Verif.Dynamics.Symmetry
import Mathlib.Tactic.IntervalCases
/-!
# C145: the direction of time
-/

namespace Verif.Dynamics

open Verif.Motion Quaternion

/-- **C145, partial.**  Full statement: what `compute_all` reports for a trajectory is what it reports for
the same frames in the opposite order (dynamics in equilibrium have no direction of time).  Proved for
all values but "struct" when no step is half a cell long in the direction of an edge and no molecule
makes half a turn in one step.  For the rest see the refutations below. -/
theorem C145_backwards_partial {N : ℕ} (hN : 0 < N) (argsort : List ℝ → List ℕ)
    (c : Cell) (hc : c.Proper) (mol : Option Mol) (h2 : c.is2D = is2d mol)
    (k : Option ℝ) (res : ℕ) (t0 t : ℤ) (s : ℕ → Fin N → V3)
    (θ : Option (ℕ → Fin N → ℝ)) (n : ℕ) (hs : ∀ i ≤ n, ∀ m, NoTie c (s i m - s (i + 1) m))
    (hθ : NoHalfTurn θ n) (sc : Bool) {row row' : Dict Quantity Val}
    (h : rowAt argsort c.array mol k res t0 (frame s (planar θ) 0)
        (frames s (planar θ) 1 (n + 1)) t (frame s (planar θ) (n + 1)) sc = .ok row)
    (s' : ℕ → Fin N → V3) (hs' : s' = backwards (n + 1) s)
    (o' : ℕ → Option (Fin N → Quat)) (ho' : o' = planar (θ.map (backwards (n + 1))))
    (h' : rowAt argsort c.array mol k res t0 (frame s' o' 0) (frames s' o' 1 (n + 1)) t
        (frame s' o' (n + 1)) sc = .ok row') (q : Quantity) (hq : q ≠ .struct) :
    Dict.get? row' q = Dict.get? row q := by
  subst hs'
  subst ho'
  have hb := freudBox_of h2
  rw [rowAt_eq hN argsort hb k res t0 t s _ (planar_unit θ) n sc] at h
  rw [rowAt_eq hN argsort hb k res t0 t _ _ (planar_unit _) n sc] at h'
  have hT := sumT_backwards hc s (n + 1) (fun i hi m => hs i (by omega) m)
  refine row_same (D := dynAfter c.box mol k res t0 s (planar θ) (n + 1))
    (D' := dynAfter c.box mol k res t0 (backwards (n + 1) s)
      (planar (θ.map (backwards (n + 1)))) (n + 1))
    rfl rfl rfl rfl ?_ ?_ rfl rfl ?_ h h' q hq
  · intro m
    rw [hT, len2_neg]
  · intro m
    rw [sumR_backwards θ n hθ, len2_neg]
  · apply isf_same
    intro k m
    rw [hT]
    apply Finset.sum_congr rfl
    intro j _
    rw [Prod.fst_neg, Prod.snd_neg, Prod.fst_neg, ← Real.cos_neg]
    congr 1
    ring

/-- Ten molecules speeding up while they turn, and the same slowing down. -/
example : ∃ row row',
    rowAt (fun l => List.range l.length) (⟨10, 8, 1, 1 / 2, 0, 0, true⟩ : Cell).array
      (some ⟨2, [(1, 0, 0)]⟩) (some 2) 360 0
      (frame (fun i (m : Fin 10) => ((i : ℝ) ^ 2 / 3, (m : ℝ) / 2, 0)) (planar (some fun i _ => (i : ℝ))) 0)
      (frames (fun i (m : Fin 10) => ((i : ℝ) ^ 2 / 3, (m : ℝ) / 2, 0)) (planar (some fun i _ => (i : ℝ))) 1 6) 5
      (frame (fun i (m : Fin 10) => ((i : ℝ) ^ 2 / 3, (m : ℝ) / 2, 0)) (planar (some fun i _ => (i : ℝ))) 6)
      true = .ok row ∧
    rowAt (fun l => List.range l.length) (⟨10, 8, 1, 1 / 2, 0, 0, true⟩ : Cell).array
      (some ⟨2, [(1, 0, 0)]⟩) (some 2) 360 0
      (frame (backwards 6 fun i (m : Fin 10) => ((i : ℝ) ^ 2 / 3, (m : ℝ) / 2, 0))
        (planar (some (backwards 6 fun i _ => (i : ℝ)))) 0)
      (frames (backwards 6 fun i (m : Fin 10) => ((i : ℝ) ^ 2 / 3, (m : ℝ) / 2, 0))
        (planar (some (backwards 6 fun i _ => (i : ℝ)))) 1 6) 5
      (frame (backwards 6 fun i (m : Fin 10) => ((i : ℝ) ^ 2 / 3, (m : ℝ) / 2, 0))
        (planar (some (backwards 6 fun i _ => (i : ℝ)))) 6)
      true = .ok row' ∧
    ∀ q ≠ Quantity.struct, Dict.get? row' q = Dict.get? row q := by
  obtain ⟨row, h⟩ := C38_succeeds (N := 10) le_rfl (fun l => List.range l.length)
    ⟨10, 8, 1, 1 / 2, 0, 0, true⟩ (some ⟨2, [(1, 0, 0)]⟩) (by simp) (some 2) (by simp) 360 0 5
    (fun i (m : Fin 10) => ((i : ℝ) ^ 2 / 3, (m : ℝ) / 2, 0)) (planar (some fun i _ => (i : ℝ)))
    (planar_unit _) 5 true
  obtain ⟨row', h'⟩ := C38_succeeds (N := 10) le_rfl (fun l => List.range l.length)
    ⟨10, 8, 1, 1 / 2, 0, 0, true⟩ (some ⟨2, [(1, 0, 0)]⟩) (by simp) (some 2) (by simp) 360 0 5
    (backwards 6 fun i (m : Fin 10) => ((i : ℝ) ^ 2 / 3, (m : ℝ) / 2, 0))
    (planar (some (backwards 6 fun i _ => (i : ℝ)))) (planar_unit _) 5 true
  refine ⟨row, row', h, h', fun q hq => ?_⟩
  refine C145_backwards_partial (by norm_num) (fun l => List.range l.length)
    ⟨10, 8, 1, 1 / 2, 0, 0, true⟩ (by simp [Cell.Proper]) (some ⟨2, [(1, 0, 0)]⟩) rfl _ _
    0 5 (fun i (m : Fin 10) => ((i : ℝ) ^ 2 / 3, (m : ℝ) / 2, 0)) (some fun i _ => (i : ℝ)) 5 ?_ ?_
    true h _ rfl _ rfl h' q hq
  · intro i _ m α β γ hv k
    have h1 := congrArg Prod.fst hv
    have h2 := congrArg (fun w : V3 => w.2.1) hv
    simp [Cell.flat, Cell.comb] at h1 h2
    have hα : α = -(2 * i + 1) / 30 := by rw [h2] at h1; linarith
    refine ⟨fun e => ?_, fun e => ?_, by simp⟩
    · rw [hα] at e
      have : (-(2 * i + 1) : ℤ) = 30 * k + 15 := by
        have : (-(2 * (i : ℝ) + 1)) = 30 * k + 15 := by linarith
        exact_mod_cast this
      omega
    · rw [h2] at e
      have : (-1 : ℤ) = 2 * k := by
        have : (-1 : ℝ) = 2 * k := by linarith
        exact_mod_cast this
      omega
  · intro θ hθ i _ m
    obtain rfl := Option.some.inj hθ
    push_cast
    rw [show (i : ℝ) + 1 - i = 1 by ring]
    have := Real.cos_one_pos
    linarith

/-- **C145, refuted for steps of half a cell.**  All molecules at x = 0, 1/4 and 3/4 of the cell: the
mean displacement is 3/4 of the cell, and 1/4 when the frames are read backwards. -/
theorem C145_half_cell_refuted (argsort : List ℝ → List ℕ) :
    ∃ s : ℕ → Fin 10 → V3, ∃ row row',
      rowAt argsort (⟨1, 1, 1, 0, 0, 0, true⟩ : Cell).array (some ⟨2, [(0, 0, 0)]⟩) none 360 0
        (frame s (planar none) 0) (frames s (planar none) 1 2) 2 (frame s (planar none) 2) true
          = .ok row ∧
      rowAt argsort (⟨1, 1, 1, 0, 0, 0, true⟩ : Cell).array (some ⟨2, [(0, 0, 0)]⟩) none 360 0
        (frame (backwards 2 s) (planar none) 0) (frames (backwards 2 s) (planar none) 1 2) 2
        (frame (backwards 2 s) (planar none) 2) true = .ok row' ∧
      Reports row .mean_displacement (3 / 4) ∧ Reports row' .mean_displacement (1 / 4) := by
  set f : ℕ → ℝ := fun i => if i = 0 then 0 else if i = 1 then 1 / 4 else 3 / 4 with hf
  obtain ⟨row, h⟩ := C38_succeeds (N := 10) le_rfl argsort ⟨1, 1, 1, 0, 0, 0, true⟩
    (some ⟨2, [(0, 0, 0)]⟩) (by simp) none (by simp) 360 0 2
    (fun i (_ : Fin 10) => ((f i, 0, 0) : V3)) (planar none) (planar_unit _) 1 true
  obtain ⟨row', h'⟩ := C38_succeeds (N := 10) le_rfl argsort ⟨1, 1, 1, 0, 0, 0, true⟩
    (some ⟨2, [(0, 0, 0)]⟩) (by simp) none (by simp) 360 0 2
    (fun i (_ : Fin 10) => ((f (2 - i), 0, 0) : V3)) (planar none) (planar_unit _) 1 true
  refine ⟨fun i _ => (f i, 0, 0), row, row', h, h', ?_, ?_⟩
  · have := (mean_displacement_reported (by norm_num) argsort rfl none 360 0 2 _ _
      (planar_unit none) 1 true h).1
    simp only [Nat.reduceAdd, sumT_line, len_x] at this
    rw [avg_const (by norm_num)] at this
    convert this using 1
    simp only [hf]
    norm_num
    rw [show (-(1 / 4) : ℝ) = -1 / 4 by norm_num, show (-(1 / 2) : ℝ) = -1 / 2 by norm_num,
      wrap1_neg_quarter, wrap1_neg_half]
    norm_num
  · have := (mean_displacement_reported (by norm_num) argsort rfl none 360 0 2 _ _
      (planar_unit none) 1 true h').1
    simp only [Nat.reduceAdd, sumT_line (fun i => f (2 - i)), len_x] at this
    rw [avg_const (by norm_num)] at this
    convert this using 1
    simp only [hf]
    norm_num
    rw [wrap1_quarter, wrap1_half]
    norm_num

/-- **C145, refuted for "struct".**  A molecule with one particle at (0, 1, 0) moves by (0, 2, 0) and makes
half a turn, each in two steps: the particle is counted as unmoved; backwards it is counted as moved. -/
theorem C145_struct_refuted :
    ∃ (v : V3) (u : ℕ → V3) (θ : ℕ → ℝ) (D D' : Dyn),
      Plane D ⟨10, 10, 1, 0, 0, 0, true⟩ (Real.pi / 2) (fun _ : Fin 1 => v)
        (fun i (_ : Fin 1) => u i) (fun i _ => θ i) 2 ∧
      Plane D' ⟨10, 10, 1, 0, 0, 0, true⟩ (Real.pi / 2) (fun _ : Fin 1 => v)
        (fun i (_ : Fin 1) => backwards 2 u i) (fun i _ => backwards 2 θ i) 2 ∧
      D.structRelax = .ok 1 ∧ D'.structRelax = .ok 0 := by
  have hpi := Real.pi_pos
  have hw : ∀ x y : ℝ, |y - x| ≤ 1 →
      (⟨10, 10, 1, 0, 0, 0, true⟩ : Cell).WithinHalf ((0, y, 0) - (0, x, 0)) := by
    intro x y h
    refine ⟨0, (y - x) / 10, 0, by norm_num, ?_, by norm_num, by simp [Cell.comb]⟩
    rw [abs_div, abs_of_pos (by norm_num : (0 : ℝ) < 10)]
    linarith
  have hstep : ∀ i < 2, ((2 - (i + 1) : ℕ) : ℝ) = ((2 - i : ℕ) : ℝ) - 1 := by
    intro i hi
    interval_cases i <;> norm_num
  obtain ⟨D, hD, h⟩ := struct_single (0, 1, 0) (fun i => (0, (i : ℝ), 0))
    (fun i => i * (Real.pi / 2)) 2 (fun _ => rfl) (fun i _ => hw _ _ (by push_cast; simp)) (fun i _ => by
      rw [show ((i + 1 : ℕ) : ℝ) * (Real.pi / 2) - i * (Real.pi / 2) = Real.pi / 2 by push_cast; ring,
        abs_of_pos (by linarith)]
      linarith)
  obtain ⟨D', hD', h'⟩ := struct_single (0, 1, 0) (backwards 2 fun i => (0, (i : ℝ), 0))
    (backwards 2 fun i => i * (Real.pi / 2)) 2 (fun _ => rfl)
    (fun i hi => hw _ _ (by rw [hstep i hi]; simp)) (fun i hi => by
      unfold backwards
      beta_reduce
      rw [hstep i hi, show ∀ x : ℝ, (x - 1) * (Real.pi / 2) - x * (Real.pi / 2) = -(Real.pi / 2) by
        intro x; ring, abs_neg, abs_of_pos (by linarith)]
      linarith)
  refine ⟨(0, 1, 0), fun i => (0, (i : ℝ), 0), fun i => i * (Real.pi / 2), D, D', hD, hD', ?_, ?_⟩
  · rw [h, if_pos]
    have e : ((2 : ℕ) : ℝ) * (Real.pi / 2) - ((0 : ℕ) : ℝ) * (Real.pi / 2) = Real.pi := by
      push_cast; ring
    rw [e]
    simp [turnedX, len2]
    norm_num
  · rw [h', if_neg]
    have e : backwards 2 (fun i : ℕ => (i : ℝ) * (Real.pi / 2)) 2 -
        backwards 2 (fun i : ℕ => (i : ℝ) * (Real.pi / 2)) 0 = -Real.pi := by
      simp [backwards]; ring
    rw [e]
    simp [turnedX, len2, backwards]
    norm_num

end Verif.Dynamics
