import Verif.Wave.DirectionLemmas
import Verif.Dynamics.Props
/-!
# C171: the scattering function is the average over all directions
-/

namespace Verif.Wave

open Verif.Motion Verif.Dynamics

/-- **C171, the average over all directions.**  For a displacement `(x, y)` the average of `cos (k · d)` over
all directions of the wave vector is the Bessel function of the wave number times the distance. -/
theorem C171_bessel (k x y z : ℝ) : overCircle k x y = bessel0 (k * planar (x, y, z)) := overCircle_eq k x y

/-- **C171.**  The scattering function reported with `res` wave vectors differs from the average over the
molecules of the Bessel functions, the average over all directions, by at most `2 zʳᵉˢ eᶻ / res!`, where no molecule moved further than `z / k`. -/
theorem C171_all_directions {argsort : List ℝ → List ℕ} {D0 D D' : Dyn} {t0 : ℤ} {box : List ℝ}
    {p0 : List V3} {o0 : Option (List Quat)} {mol : Option Dynamics.Mol} {k : ℝ} {res : ℕ}
    (hres : 0 < res) (hnew : Dyn.new t0 box p0 o0 mol (some k) res = .ok D0) {fs : List Frame}
    (hadd : addFrames D0 fs = .ok D) {t : ℤ} {pos : List V3}
    {ori : Option (List Quat)} {row : Dict Quantity Val}
    (h : D.computeAll argsort t pos ori true = (D', .ok row))
    {N : ℕ} (hN : 0 < N) (d : Fin N → V3) (hd : D'.motion.deltaT = List.ofFn d)
    {z : ℝ} (hz : ∀ m, |k| * planar (d m) ≤ z) :
    ∃ x : ℝ, Reports row .scattering_function x ∧
      |x - avg (fun m => bessel0 (k * planar (d m)))| ≤ 2 * (z ^ res * Real.exp z / res.factorial) := by
  obtain ⟨x, hx, e, -⟩ := C35_isf hres hnew hadd h hN d hd
  exact ⟨x, hx, by rw [e]; exact directions_close hN hres k d hz⟩

/-- The hypotheses are met by the example of C35, whatever bound there is for its displacements. -/
example (argsort : List ℝ → List ℕ) : ∃ (D0 D D' : Dyn) (row : Dict Quantity Val)
    (d : Fin 10 → V3) (z : ℝ),
    Dyn.new 0 [10, 10, 1, 0, 0, 0] (frame exS exO 0).1 (frame exS exO 0).2 (some exMol) (some 2) 360 =
      .ok D0 ∧ addFrames D0 (frames exS exO 1 2) = .ok D ∧
    D.computeAll argsort 5 (frame exS exO 2).1 (frame exS exO 2).2 true = (D', .ok row) ∧
    D'.motion.deltaT = List.ofFn d ∧ ∀ m, |(2 : ℝ)| * planar (d m) ≤ z := by
  have h := new_track (N := 10) (by omega) (box := [10, 10, 1, 0, 0, 0]) (mol := some exMol) rfl
    (some 2) 360 0 exS exO exO_unit 1
  cases hn : Dyn.new 0 [10, 10, 1, 0, 0, 0] (frame exS exO 0).1 (frame exS exO 0).2 (some exMol)
      (some 2) 360 with
  | error e => rw [hn] at h; cases h
  | ok D0 =>
    rw [hn] at h
    obtain ⟨row, hrow⟩ := quantities_succeeds (D := dynAfter _ (some exMol) (some 2) 360 0 exS exO 2)
      argsort 5 true (N := 10) le_rfl rfl rfl rfl (by simp [dynAfter]) (by simp [dynAfter])
      (by simp [dynAfter, exMol])
    exact ⟨D0, _, _, row, _, _, rfl, h,
      (computeAll_dynAfter argsort _ _ _ _ _ _ _ _ exO_unit 1 true).trans (by rw [hrow]), rfl,
      fun m => Finset.le_sup' (fun m => |(2 : ℝ)| * planar _) (Finset.mem_univ m)⟩

/-- **C171, in `process_file`.**  With the 360 wave vectors of `process_file` the difference is below
10⁻¹⁰⁰ for displacements up to 50 over the wave number. -/
theorem C171_resolution {argsort : List ℝ → List ℕ} {D0 D D' : Dyn} {t0 : ℤ} {box : List ℝ}
    {p0 : List V3} {o0 : Option (List Quat)} {mol : Option Dynamics.Mol} {k : ℝ}
    (hnew : Dyn.new t0 box p0 o0 mol (some k) = .ok D0) {fs : List Frame}
    (hadd : addFrames D0 fs = .ok D) {t : ℤ} {pos : List V3}
    {ori : Option (List Quat)} {row : Dict Quantity Val}
    (h : D.computeAll argsort t pos ori true = (D', .ok row))
    {N : ℕ} (hN : 0 < N) (d : Fin N → V3) (hd : D'.motion.deltaT = List.ofFn d)
    (hz : ∀ m, |k| * planar (d m) ≤ 50) :
    ∃ x : ℝ, Reports row .scattering_function x ∧
      |x - avg (fun m => bessel0 (k * planar (d m)))| ≤ 1 / 10 ^ 100 := by
  obtain ⟨x, hx, he⟩ := C171_all_directions (by omega) hnew hadd h hN d hd hz
  exact ⟨x, hx, he.trans bound_360⟩

/-- **C171, turned systems.**  Two systems in which the molecules moved by the same distances in the plane,
in whatever directions, have the same scattering function to within 2 · 10⁻¹⁰⁰. -/
theorem C171_directions_irrelevant {argsort : List ℝ → List ℕ} {D0 D D' E0 E E' : Dyn} {t0 s0 : ℤ}
    {box box' : List ℝ} {p0 p0' : List V3} {o0 o0' : Option (List Quat)} {mol mol' : Option Dynamics.Mol}
    {k : ℝ} (hnew : Dyn.new t0 box p0 o0 mol (some k) = .ok D0)
    (hnew' : Dyn.new s0 box' p0' o0' mol' (some k) = .ok E0) {fs fs' : List Frame}
    (hadd : addFrames D0 fs = .ok D) (hadd' : addFrames E0 fs' = .ok E) {t t' : ℤ} {pos pos' : List V3}
    {ori ori' : Option (List Quat)} {row row' : Dict Quantity Val}
    (h : D.computeAll argsort t pos ori true = (D', .ok row))
    (h' : E.computeAll argsort t' pos' ori' true = (E', .ok row'))
    {N : ℕ} (hN : 0 < N) (d d' : Fin N → V3) (hd : D'.motion.deltaT = List.ofFn d)
    (hd' : E'.motion.deltaT = List.ofFn d') (hsame : ∀ m, planar (d m) = planar (d' m))
    (hz : ∀ m, |k| * planar (d m) ≤ 50) :
    ∃ x x' : ℝ, Reports row .scattering_function x ∧ Reports row' .scattering_function x' ∧
      |x - x'| ≤ 2 / 10 ^ 100 := by
  obtain ⟨x, hx, he⟩ := C171_resolution hnew hadd h hN d hd hz
  obtain ⟨x', hx', he'⟩ := C171_resolution hnew' hadd' h' hN d' hd' (fun m => by rw [← hsame]; exact hz m)
  simp only [← hsame] at he'
  refine ⟨x, x', hx, hx', ?_⟩
  set A := avg (fun m => bessel0 (k * planar (d m)))
  have h1 := abs_sub_le x A x'
  rw [abs_sub_comm A x'] at h1
  have h2 : (2 : ℝ) / 10 ^ 100 = 1 / 10 ^ 100 + 1 / 10 ^ 100 := by ring
  rw [h2]
  linarith

/-- The x and y axes: displacements along them have the same length. -/
example : planar (3, 0, 0) = planar (0, 3, 0) ∧ |(2 : ℝ)| * planar (3, 0, 0) ≤ 50 := by
  unfold planar
  refine ⟨by norm_num, ?_⟩
  rw [show ((3 : ℝ), (0 : ℝ), (0 : ℝ)).1 ^ 2 + ((3 : ℝ), (0 : ℝ), (0 : ℝ)).2.1 ^ 2 = 3 ^ 2 by norm_num,
    Real.sqrt_sq (by norm_num)]
  norm_num

end Verif.Wave
