import Verif.Wave.DirectionLemmas
import Verif.Pipeline.Props
/-!
# C171 for the rows of `process_file`
-/

namespace Verif.Pipeline

open Verif.Motion Verif.Dynamics Verif.Wave Verif.Process Verif.Cache Verif.Relax Verif.Gsd

variable {ι ν : Type} [DecidableEq ι] {N : ℕ}

open Classical in
/-- **C171, from the true motion.**  In the runs of C91 with a wave number `κ'` and the scattering function
asked for, the scattering function in row `i` is the average over the molecules of the Bessel function of
`κ'` times the true distance moved in the plane, to within 10⁻¹⁰⁰ where the distances are up to 50 / κ'. -/
theorem C171_true_motion (hN : 10 ≤ N) (a : Args) (vars : Except PyErr ν) (c : Cell)
    (hdim : decide (a.mol.dimensions = 2) = c.is2D) (hmol : a.mol.positions ≠ []) {κ : ℝ} (hκ : 0 < κ)
    (hdef : a.relaxations = none) {pairs : List (List ι × GFrame PData)} {ending : Option PyErr}
    {file file' : File (Rec ι (Dict Quantity Val) (Dict String ℤ) ν)}
    {out : Option (List (Rec ι (Dict Quantity Val) (Dict String ℤ) ν))}
    (h : processFile (env a vars) (some (pairs, ending)) true file = (file', .ok out)) (k : ι)
    {n : ℕ} {t : ℕ → ℤ} {box : ℕ → List ℝ} {u s : ℕ → Fin N → V3} {θ σ : ℕ → Fin N → ℝ}
    {o : ℕ → Option (Fin N → Quat)} (hbox : box 0 = c.array) (hF : Follows c n u s θ σ o)
    (hw : waveOf a.calcWave c.box (List.ofFn (s 0)) a.wave = .ok κ)
    (hk : framesOf k (visitsOf (env a vars) pairs) = gframes t box s o n) {κ' : ℝ} (hwave : a.wave = some κ')
    (hsc : a.scattering = true) {i : ℕ} (hi : i ≤ n)
    (hz : ∀ m, |κ'| * planar (c.flat (u i m - u 0 m)) ≤ 50) :
    ∃ row x, ((rows file' "dynamics").filterMap (dynOf k))[i]? = some row ∧
      Reports row .scattering_function x ∧
      |x - avg (fun m => bessel0 (κ' * planar (c.flat (u i m - u 0 m))))| ≤ 1 / 10 ^ 100 := by
  obtain ⟨-, h2⟩ := C91_true_motion hN a vars c hdim hmol hκ hdef h k hbox hF hw hk
  obtain ⟨row, h3, -, h4⟩ := h2 i hi
  refine ⟨row, _, h3, (h4 κ' hwave).2 hsc, ?_⟩
  exact (directions_close (by omega) (by omega) κ' _ hz).trans bound_360

/-- The run of the example of `C91_true_motion`, with its wave number and the distances of frame 5. -/
example : tA.wave = some 2 ∧ tA.scattering = true ∧
    ∀ m, |(2 : ℝ)| * planar (tC.flat (tU 5 m - tU 0 m)) ≤ 50 := by
  refine ⟨rfl, rfl, fun m => ?_⟩
  have h : planar (tC.flat (tU 5 m - tU 0 m)) ≤ 5 := by
    unfold planar
    rw [Real.sqrt_le_left (by norm_num)]
    by_cases hm : m = 0 <;> simp [tU, hm, Cell.flat, tC]
  rw [abs_of_pos (by norm_num)]
  linarith

end Verif.Pipeline
