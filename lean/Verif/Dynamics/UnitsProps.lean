import Verif.Dynamics.UnitsLemmas
import Verif.Dynamics.Props
/-!
# C135: change of the unit of length
-/

namespace Verif.Dynamics

open Verif.Motion

/-- **C135**: the same trajectory with all lengths in a unit `a` times smaller (positions, cell and molecule times
`a`, the wave number divided by it) gives the same row with `mean_displacement` times `a`, `msd` times `a^2` and `mfd`
times `a^4`, and all other quantities unchanged; or the same exception. -/
theorem C135_units {N : ℕ} (hN : 0 < N) {argsort : List ℝ → List ℕ} (hs : Compares argsort) {a : ℝ} (ha : 0 < a)
    (c : Cell) (mol : Option Mol) (k : Option ℝ) (res : ℕ) (t0 t : ℤ) (s : ℕ → Fin N → V3)
    (o : ℕ → Option (Fin N → Quat)) (ho : Unit o) (n : ℕ) (sc : Bool) :
    rowAt argsort (Cell.rescaled a c).array (mol.map (Mol.rescaled a)) (k.map (· / a)) res t0
        (frame (fun i m => a • s i m) o 0) (frames (fun i m => a • s i m) o 1 (n + 1)) t
        (frame (fun i m => a • s i m) o (n + 1)) sc =
      (rowAt argsort c.array mol k res t0 (frame s o 0) (frames s o 1 (n + 1)) t (frame s o (n + 1)) sc).map
        (rescaledRow a) := by
  have e2 : is2d (mol.map (Mol.rescaled a)) = is2d mol := by cases mol <;> rfl
  obtain ⟨b, hb, hb'⟩ : ∃ b, createFreudBox c.array (is2d mol) = .ok b ∧
      createFreudBox (Cell.rescaled a c).array (is2d (mol.map (Mol.rescaled a))) =
        .ok ⟨a * b.Lx, a * b.Ly, a * b.Lz, b.xy, b.xz, b.yz, b.is2D⟩ := by
    rw [e2]
    refine ⟨_, rfl, ?_⟩
    unfold createFreudBox Cell.rescaled Cell.array
    cases is2d mol
    · rfl
    · simp
  rw [rowAt_eq hN argsort hb k res t0 t s o ho n sc, rowAt_eq hN argsort hb' _ res t0 t _ o ho n sc]
  refine Rescaled.row (d := sumT b s (n + 1)) (r := sumR o (n + 1)) ?_ ha hN hs t sc
  refine ⟨rfl, rfl, ?_, rfl, rfl, rfl, ?_, ?_, rfl, rfl, rfl⟩
  · simp only [dynAfter, sumT_rescaled ha.ne']
  · cases k with
    | none => rfl
    | some k =>
      simp only [dynAfter, Option.map_some, createWaveVector, List.map_map, Function.comp_def, mul_div_assoc]
  · cases mol <;> rfl

/-- The hypothesis on the order is met by a merge sort of the indices by the numbers there. -/
example : ∃ argsort, Compares argsort := by
  classical
  refine ⟨fun l => (List.range l.length).mergeSort
    (fun i j => decide (∀ x y, l[i]? = some x → l[j]? = some y → x ≤ y)), fun l f hf => ?_⟩
  have e (i j : ℕ) : (∀ x y, (l.map f)[i]? = some x → (l.map f)[j]? = some y → x ≤ y) ↔
      (∀ x y, l[i]? = some x → l[j]? = some y → x ≤ y) := by
    simp only [List.getElem?_map, Option.map_eq_some_iff]
    constructor
    · intro h x y hx hy
      exact hf.le_iff_le.1 (h _ _ ⟨x, hx, rfl⟩ ⟨y, hy, rfl⟩)
    · rintro h _ _ ⟨x, hx, rfl⟩ ⟨y, hy, rfl⟩
      exact hf.le_iff_le.2 (h x y hx hy)
  simp only [List.length_map, e]

/-- Ten molecules, one of which moves and turns, give a row, and so does the same in another unit. -/
example {argsort : List ℝ → List ℕ} (hs : Compares argsort) : ∃ (c : Cell) (row : Dict Quantity Val),
    rowAt argsort c.array (some exMol) (some 2) 360 0 (frame exS exO 0) (frames exS exO 1 4) 5 (frame exS exO 4) true =
      .ok row ∧
    rowAt argsort (Cell.rescaled 10 c).array (some (Mol.rescaled 10 exMol)) (some (2 / 10)) 360 0
      (frame (fun i m => (10 : ℝ) • exS i m) exO 0) (frames (fun i m => (10 : ℝ) • exS i m) exO 1 4) 5
      (frame (fun i m => (10 : ℝ) • exS i m) exO 4) true = .ok (rescaledRow 10 row) := by
  obtain ⟨row, h⟩ := C38_succeeds (N := 10) le_rfl argsort ⟨10, 10, 1, 0, 0, 0, true⟩ (some exMol)
    (by intro m hm; obtain rfl := Option.some.inj hm; simp [exMol]) (some 2) (by simp) 360 0 5 exS
    exO exO_unit 3 true
  refine ⟨_, row, h, ?_⟩
  have := C135_units (N := 10) (by norm_num) hs (a := 10) (by norm_num) ⟨10, 10, 1, 0, 0, 0, true⟩ (some exMol) (some 2)
    360 0 5 exS exO exO_unit 3 true
  rw [h] at this
  exact this

end Verif.Dynamics
