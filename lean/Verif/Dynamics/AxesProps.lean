import Verif.Dynamics.AxesLemmas
import Verif.Dynamics.Symmetry
/-!
# C144: the choice of axes
-/

namespace Verif.Dynamics

open Verif.Motion Quaternion

/-- **C144.** The new cell repeats in the new directions: a vector connects periodic images of the
old cell if and only if it does so, in the new axes, for the new one. -/
theorem C144_cell (gs : List Flip) (c : Cell) (hg : Flip.swap ∈ gs → c.xy = 0) (v : V3) :
    (newCell gs c).Lattice (newVec gs v) ↔ c.Lattice v := by
  induction gs with
  | nil => rfl
  | cons g gs ih =>
    rw [← ih (fun h => hg (List.mem_cons_of_mem _ h))]
    have hx : g = .swap → (newCell gs c).xy = 0 := by
      rintro rfl
      exact newCell_xy gs (hg List.mem_cons_self)
    change (g.cell (newCell gs c)).Lattice (g.vec (newVec gs v)) ↔ _
    generalize newCell gs c = c at hx
    generalize newVec gs v = v
    have hcoord : ∀ f : V3, (g.cell c).comb (g.vec f).1 (g.vec f).2.1 (g.vec f).2.2 =
        g.vec (c.comb f.1 f.2.1 f.2.2) := by
      intro f
      rw [← coord_box, ← coord_box]
      exact Flip.coord g c hx f
    have hinj : ∀ v w : V3, g.vec v = g.vec w → v = w := by
      intro v w h
      cases g <;> simp only [Flip.vec, Prod.mk.injEq, neg_inj] at h <;>
        exact Prod.ext (by tauto) (Prod.ext (by tauto) (by tauto))
    constructor
    · rintro ⟨i, j, k, h⟩
      cases g with
      | x =>
        refine ⟨-i, j, k, hinj _ _ ?_⟩
        have := hcoord (-(i : ℝ), j, k)
        simp only [Flip.vec, neg_neg] at this
        push_cast
        rw [h, this]
        rfl
      | y =>
        refine ⟨i, -j, k, hinj _ _ ?_⟩
        have := hcoord ((i : ℝ), -(j : ℝ), k)
        simp only [Flip.vec, neg_neg] at this
        push_cast
        rw [h, this]
        rfl
      | swap =>
        refine ⟨j, i, k, hinj _ _ ?_⟩
        rw [h]
        exact hcoord ((j : ℝ), (i : ℝ), k)
    · rintro ⟨i, j, k, rfl⟩
      have := hcoord ((i : ℝ), (j : ℝ), (k : ℝ))
      rw [← this]
      cases g with
      | x => exact ⟨-i, j, k, by push_cast; rfl⟩
      | y => exact ⟨i, -j, k, by push_cast; rfl⟩
      | swap => exact ⟨j, i, k, rfl⟩

/-- A sheared cell with x reversed, and a rectangular one with x and y exchanged. -/
example (v : V3) : ((newCell [.x] ⟨10, 8, 1, 1 / 2, 0, 0, true⟩).Lattice (newVec [.x] v) ↔
      (⟨10, 8, 1, 1 / 2, 0, 0, true⟩ : Cell).Lattice v) ∧
    ((newCell [.swap, .y] ⟨10, 8, 1, 0, 0, 0, true⟩).Lattice (newVec [.swap, .y] v) ↔
      (⟨10, 8, 1, 0, 0, 0, true⟩ : Cell).Lattice v) :=
  ⟨C144_cell _ _ (by simp) v, C144_cell _ _ (by simp) v⟩

/-- **C144, partial.**  Full statement: what `compute_all` reports does not depend on the choice of axes:
reversing or exchanging x and y, any number of times, in all frames (with the cell, the molecule and
the sense of rotation) changes no value.  Proved for all values but "struct" when no step is half a
cell long in the direction of an edge, no molecule makes half a turn in one step, and, if x and y are
exchanged, the number of wave vectors is a multiple of 4 (it is 360 unless changed).  For the rest see
the refutations below. -/
theorem C144_axes_partial {N : ℕ} (hN : 0 < N) (gs : List Flip) (argsort : List ℝ → List ℕ)
    (c : Cell) (hc : c.Proper) (mol mol' : Option Mol) (h2 : c.is2D = is2d mol)
    (h2' : is2d mol' = is2d mol) (k : Option ℝ) (res : ℕ)
    (hg : Flip.swap ∈ gs → c.xy = 0 ∧ 4 ∣ res) (t0 t : ℤ) (s : ℕ → Fin N → V3)
    (θ : Option (ℕ → Fin N → ℝ)) (n : ℕ) (hs : ∀ i ≤ n, ∀ m, NoTie c (s i m - s (i + 1) m))
    (hθ : NoHalfTurn θ n) (sc : Bool) {row row' : Dict Quantity Val}
    (h : rowAt argsort c.array mol k res t0 (frame s (planar θ) 0)
        (frames s (planar θ) 1 (n + 1)) t (frame s (planar θ) (n + 1)) sc = .ok row)
    (s' : ℕ → Fin N → V3) (hs' : s' = fun i m => newVec gs (s i m))
    (o' : ℕ → Option (Fin N → Quat))
    (ho' : o' = planar (θ.map (fun θ i m => newAngle gs (θ i m))))
    (h' : rowAt argsort (newCell gs c).array mol' k res t0 (frame s' o' 0) (frames s' o' 1 (n + 1)) t
        (frame s' o' (n + 1)) sc = .ok row') (q : Quantity) (hq : q ≠ .struct) :
    Dict.get? row' q = Dict.get? row q := by
  subst hs'
  subst ho'
  have hb := freudBox_of h2
  have hb' : createFreudBox (newCell gs c).array (is2d mol') = .ok (newCell gs c).box :=
    freudBox_of (by rw [newCell_is2D, h2, h2'])
  rw [rowAt_eq hN argsort hb k res t0 t s _ (planar_unit θ) n sc] at h
  rw [rowAt_eq hN argsort hb' k res t0 t _ _ (planar_unit _) n sc] at h'
  have hT := sumT_new (gs := gs) hc (fun hm => (hg hm).1) s (n + 1) (fun i hi m => hs i (by omega) m)
  refine row_same (D := dynAfter c.box mol k res t0 s (planar θ) (n + 1))
    (D' := dynAfter (newCell gs c).box mol' k res t0 _ _ (n + 1))
    rfl rfl rfl rfl ?_ ?_ rfl rfl ?_ h h' q hq
  · intro m
    rw [hT, newVec_len2]
  · intro m
    rw [sumR_new gs θ n hθ, len2_sign]
  · apply isf_same
    intro k m
    rw [hT]
    exact newVec_waves gs res (fun hm => (hg hm).2) k _

/-- Ten molecules going round in a sheared cell while turning by a radian each frame, in reversed axes. -/
example : ∃ row row',
    rowAt (fun l => List.range l.length) (⟨10, 8, 1, 1 / 2, 0, 0, true⟩ : Cell).array
      (some ⟨2, [(1, 0, 0)]⟩) (some 2) 360 0
      (frame (fun i (m : Fin 10) => ((i : ℝ), (m : ℝ) / 2, 0)) (planar (some fun i _ => (i : ℝ))) 0)
      (frames (fun i (m : Fin 10) => ((i : ℝ), (m : ℝ) / 2, 0)) (planar (some fun i _ => (i : ℝ))) 1 6) 5
      (frame (fun i (m : Fin 10) => ((i : ℝ), (m : ℝ) / 2, 0)) (planar (some fun i _ => (i : ℝ))) 6)
      true = .ok row ∧
    rowAt (fun l => List.range l.length) (⟨10, 8, 1, -(1 / 2), 0, 0, true⟩ : Cell).array
      (some ⟨2, [(-1, 0, 0)]⟩) (some 2) 360 0
      (frame (fun i (m : Fin 10) => (-(i : ℝ), (m : ℝ) / 2, 0)) (planar (some fun i _ => -(i : ℝ))) 0)
      (frames (fun i (m : Fin 10) => (-(i : ℝ), (m : ℝ) / 2, 0)) (planar (some fun i _ => -(i : ℝ))) 1 6) 5
      (frame (fun i (m : Fin 10) => (-(i : ℝ), (m : ℝ) / 2, 0)) (planar (some fun i _ => -(i : ℝ))) 6)
      true = .ok row' ∧
    ∀ q ≠ Quantity.struct, Dict.get? row' q = Dict.get? row q := by
  obtain ⟨row, h⟩ := C38_succeeds (N := 10) le_rfl (fun l => List.range l.length)
    ⟨10, 8, 1, 1 / 2, 0, 0, true⟩ (some ⟨2, [(1, 0, 0)]⟩) (by simp) (some 2) (by simp) 360 0 5
    (fun i (m : Fin 10) => ((i : ℝ), (m : ℝ) / 2, 0)) (planar (some fun i _ => (i : ℝ)))
    (planar_unit _) 5 true
  obtain ⟨row', h'⟩ := C38_succeeds (N := 10) le_rfl (fun l => List.range l.length)
    ⟨10, 8, 1, -(1 / 2), 0, 0, true⟩ (some ⟨2, [(-1, 0, 0)]⟩) (by simp) (some 2) (by simp) 360 0 5
    (fun i (m : Fin 10) => (-(i : ℝ), (m : ℝ) / 2, 0)) (planar (some fun i _ => -(i : ℝ)))
    (planar_unit _) 5 true
  refine ⟨row, row', h, h', fun q hq => ?_⟩
  refine C144_axes_partial (by norm_num) [.x] (fun l => List.range l.length)
    ⟨10, 8, 1, 1 / 2, 0, 0, true⟩ (by simp [Cell.Proper]) (some ⟨2, [(1, 0, 0)]⟩)
    (some ⟨2, [(-1, 0, 0)]⟩) rfl rfl _ _
    (by simp) 0 5 (fun i (m : Fin 10) => ((i : ℝ), (m : ℝ) / 2, 0)) (some fun i _ => (i : ℝ)) 5 ?_ ?_
    true h _ rfl _ rfl h' q hq
  · intro i _ m α β γ hv k
    have h1 := congrArg Prod.fst hv
    have h2 := congrArg (fun w : V3 => w.2.1) hv
    simp [Cell.flat, Cell.comb] at h1 h2
    have hβ : β = 0 := by linarith
    have hα : α = -1 / 10 := by rw [hβ] at h1; linarith
    refine ⟨fun e => ?_, fun e => ?_, by simp⟩
    · rw [hα] at e
      have : (-6 : ℤ) = 10 * k := by
        have : (-6 : ℝ) = 10 * k := by linarith
        exact_mod_cast this
      omega
    · rw [hβ] at e
      have : (-1 : ℤ) = 2 * k := by
        have : (-1 : ℝ) = 2 * k := by linarith
        exact_mod_cast this
      omega
  · intro θ hθ i _ m
    obtain rfl := Option.some.inj hθ
    push_cast
    rw [show (i : ℝ) + 1 - i = 1 by ring]
    have := Real.cos_one_pos
    linarith

/-- **C144, refuted for steps of half a cell.**  All molecules at x = 0, 1/4 and 3/4 of the cell: the
mean displacement is 3/4 of the cell, and 1/4 with the x axis reversed. -/
theorem C144_half_cell_refuted (argsort : List ℝ → List ℕ) :
    ∃ s : ℕ → Fin 10 → V3, ∃ row row',
      rowAt argsort (⟨1, 1, 1, 0, 0, 0, true⟩ : Cell).array (some ⟨2, [(0, 0, 0)]⟩) none 360 0
        (frame s (planar none) 0) (frames s (planar none) 1 2) 2 (frame s (planar none) 2) true
          = .ok row ∧
      rowAt argsort (newCell [.x] ⟨1, 1, 1, 0, 0, 0, true⟩).array (some ⟨2, [(0, 0, 0)]⟩) none 360 0
        (frame (fun i m => newVec [.x] (s i m)) (planar none) 0)
        (frames (fun i m => newVec [.x] (s i m)) (planar none) 1 2) 2
        (frame (fun i m => newVec [.x] (s i m)) (planar none) 2) true = .ok row' ∧
      Reports row .mean_displacement (3 / 4) ∧ Reports row' .mean_displacement (1 / 4) := by
  set f : ℕ → ℝ := fun i => if i = 0 then 0 else if i = 1 then 1 / 4 else 3 / 4 with hf
  have hnew : (fun i (m : Fin 10) => newVec [.x] ((f i, 0, 0) : V3)) =
      fun i (_ : Fin 10) => ((-f i, 0, 0) : V3) := rfl
  have hcell : newCell [.x] ⟨1, 1, 1, 0, 0, 0, true⟩ = ⟨1, 1, 1, 0, 0, 0, true⟩ := by
    simp [newCell, Flip.cell]
  obtain ⟨row, h⟩ := C38_succeeds (N := 10) le_rfl argsort ⟨1, 1, 1, 0, 0, 0, true⟩
    (some ⟨2, [(0, 0, 0)]⟩) (by simp) none (by simp) 360 0 2
    (fun i (_ : Fin 10) => ((f i, 0, 0) : V3)) (planar none) (planar_unit _) 1 true
  obtain ⟨row', h'⟩ := C38_succeeds (N := 10) le_rfl argsort ⟨1, 1, 1, 0, 0, 0, true⟩
    (some ⟨2, [(0, 0, 0)]⟩) (by simp) none (by simp) 360 0 2
    (fun i (_ : Fin 10) => ((-f i, 0, 0) : V3)) (planar none) (planar_unit _) 1 true
  refine ⟨fun i _ => (f i, 0, 0), row, row', h, ?_, ?_, ?_⟩
  · rw [hnew, hcell]
    exact h'
  · have := (mean_displacement_reported (by norm_num) argsort rfl none 360 0 2 _ _
      (planar_unit none) 1 true h).1
    simp only [Nat.reduceAdd, sumT_line, len_x] at this
    rw [avg_const (by norm_num)] at this
    convert this using 1
    simp only [hf]
    norm_num
    rw [show (-(1 / 4) : ℝ) = -1 / 4 by norm_num, show (-(1 / 2) : ℝ) = -1 / 2 by norm_num,
      wrap1_neg_quarter, wrap1_neg_half]
    norm_num
  · have := (mean_displacement_reported (by norm_num) argsort rfl none 360 0 2 _ _
      (planar_unit none) 1 true h').1
    simp only [Nat.reduceAdd, sumT_line, len_x] at this
    rw [avg_const (by norm_num)] at this
    convert this using 1
    simp only [hf]
    norm_num
    rw [wrap1_quarter, wrap1_half]
    norm_num

/-- **C144, refuted for a number of wave vectors that is no multiple of 4.**  With two wave vectors only
the x axis is looked at: a step along x gives the scattering function −1, with x and y exchanged 1. -/
theorem C144_wave_vectors_refuted (argsort : List ℝ → List ℕ) :
    ∃ s : ℕ → Fin 10 → V3, ∃ row row',
      rowAt argsort (⟨10, 10, 1, 0, 0, 0, true⟩ : Cell).array (some ⟨2, [(0, 0, 0)]⟩) (some Real.pi) 2 0
        (frame s (planar none) 0) (frames s (planar none) 1 1) 2 (frame s (planar none) 1) true
          = .ok row ∧
      rowAt argsort (newCell [.swap] ⟨10, 10, 1, 0, 0, 0, true⟩).array (some ⟨2, [(0, 0, 0)]⟩)
        (some Real.pi) 2 0
        (frame (fun i m => newVec [.swap] (s i m)) (planar none) 0)
        (frames (fun i m => newVec [.swap] (s i m)) (planar none) 1 1) 2
        (frame (fun i m => newVec [.swap] (s i m)) (planar none) 1) true = .ok row' ∧
      Reports row .scattering_function (-1) ∧ Reports row' .scattering_function 1 := by
  have hpi : (some Real.pi : Option ℝ) ≠ some 0 := by simp [Real.pi_ne_zero]
  obtain ⟨row, h⟩ := C38_succeeds (N := 10) le_rfl argsort ⟨10, 10, 1, 0, 0, 0, true⟩
    (some ⟨2, [(0, 0, 0)]⟩) (by simp) (some Real.pi) hpi 2 0 2
    (fun i (_ : Fin 10) => (((i : ℝ), 0, 0) : V3)) (planar none) (planar_unit _) 0 true
  obtain ⟨row', h'⟩ := C38_succeeds (N := 10) le_rfl argsort ⟨10, 10, 1, 0, 0, 0, true⟩
    (some ⟨2, [(0, 0, 0)]⟩) (by simp) (some Real.pi) hpi 2 0 2
    (fun i (_ : Fin 10) => ((0, (i : ℝ), 0) : V3)) (planar none) (planar_unit _) 0 true
  have hT : ∀ m : Fin 10, sumT (⟨10, 10, 1, 0, 0, 0, true⟩ : Cell).box
      (fun i (_ : Fin 10) => (((i : ℝ), 0, 0) : V3)) 1 m = (1, 0, 0) := by
    intro m
    unfold sumT
    rw [Finset.sum_range_one, wrap_image _ (by simp [Cell.Proper]) _ (-1 / 10) 0 0 0 0 0
      (by norm_num) (by norm_num) (by norm_num) (by simp [Cell.flat, Cell.comb])]
    simp [Cell.comb]
  have hT' : ∀ m : Fin 10, sumT (⟨10, 10, 1, 0, 0, 0, true⟩ : Cell).box
      (fun i (_ : Fin 10) => ((0, (i : ℝ), 0) : V3)) 1 m = (0, 1, 0) := by
    intro m
    unfold sumT
    rw [Finset.sum_range_one, wrap_image _ (by simp [Cell.Proper]) _ 0 (-1 / 10) 0 0 0 0
      (by norm_num) (by norm_num) (by norm_num) (by simp [Cell.flat, Cell.comb])]
    simp [Cell.comb]
  have hcos : 2 * Real.pi / 2 = Real.pi := by ring
  refine ⟨fun i _ => ((i : ℝ), 0, 0), row, row', h, h', ?_, ?_⟩
  · refine (mean_displacement_reported (by norm_num) argsort rfl _ 2 0 2 _ _
      (planar_unit none) 0 true h).2.2 _ ?_
    unfold isfVal
    rw [isf_eq (k := Real.pi) (res := 2) rfl (N := 10) (d := fun _ => (1, 0, 0))
      (congrArg List.ofFn (funext hT))]
    simp [dynAfter, Except.map, avg, Fin.sum_univ_two, hcos]
  · refine (mean_displacement_reported (by norm_num) argsort rfl _ 2 0 2 _ _
      (planar_unit none) 0 true h').2.2 _ ?_
    unfold isfVal
    rw [isf_eq (k := Real.pi) (res := 2) rfl (N := 10) (d := fun _ => (0, 1, 0))
      (congrArg List.ofFn (funext hT'))]
    simp [dynAfter, Except.map, avg, Fin.sum_univ_two, hcos]

/-- **C144, refuted for "struct".**  Half a turn, in two steps, of a molecule with one particle at (0, 1, 0):
the particle is counted as moved; with x and y exchanged it is counted as unmoved (the code turns it
about the x axis). -/
theorem C144_struct_refuted :
    ∃ (v : V3) (θ : ℕ → ℝ) (D D' : Dyn),
      Plane D ⟨10, 10, 1, 0, 0, 0, true⟩ (Real.pi / 2) (fun _ : Fin 1 => v)
        (fun _ (_ : Fin 1) => 0) (fun i _ => θ i) 2 ∧
      Plane D' (newCell [.swap] ⟨10, 10, 1, 0, 0, 0, true⟩) (Real.pi / 2)
        (fun _ : Fin 1 => newVec [.swap] v) (fun _ (_ : Fin 1) => newVec [.swap] 0)
        (fun i _ => newAngle [.swap] (θ i)) 2 ∧
      D.structRelax = .ok 0 ∧ D'.structRelax = .ok 1 := by
  have hpi := Real.pi_pos
  have hw : (⟨10, 10, 1, 0, 0, 0, true⟩ : Cell).WithinHalf (0 - 0) :=
    ⟨0, 0, 0, by norm_num, by norm_num, by norm_num, by simp [Cell.comb]⟩
  obtain ⟨D, hD, h⟩ := struct_single (0, 1, 0) (fun _ => 0) (fun i => i * (Real.pi / 2)) 2
    (fun _ => rfl) (fun _ _ => hw) (fun i _ => by
      rw [show ((i + 1 : ℕ) : ℝ) * (Real.pi / 2) - i * (Real.pi / 2) = Real.pi / 2 by push_cast; ring,
        abs_of_pos (by linarith)]
      linarith)
  obtain ⟨D', hD', h'⟩ := struct_single (1, 0, 0) (fun _ => 0) (fun i => -(i * (Real.pi / 2))) 2
    (fun _ => rfl) (fun _ _ => hw) (fun i _ => by
      rw [show -(((i + 1 : ℕ) : ℝ) * (Real.pi / 2)) - -(i * (Real.pi / 2)) = -(Real.pi / 2) by push_cast; ring,
        abs_neg, abs_of_pos (by linarith)]
      linarith)
  refine ⟨(0, 1, 0), fun i => i * (Real.pi / 2), D, D', hD, hD', ?_, ?_⟩
  · rw [h, if_neg]
    have e : ((2 : ℕ) : ℝ) * (Real.pi / 2) - ((0 : ℕ) : ℝ) * (Real.pi / 2) = Real.pi := by
      push_cast; ring
    rw [e]
    simp [turnedX, len2]
    norm_num
  · rw [h', if_pos]
    simp [turnedX, len2]

end Verif.Dynamics
