import Verif.Dynamics.Model
/-!
# Model of the automatic wave number, `src/sdanalysis/dynamics/_util.py:57-86`

Simplifications: real numbers for floats.  `freud.density.RDF` is a parameter, a function of the box, the
bin width, the largest distance and the positions which gives the bin centres, the values and the volume
of the box, or raises.
-/

namespace Verif.Wave

open Verif.Motion

/-- What is used of a `freud.density.RDF` object after `compute`: `rdf.R`, `rdf.RDF`, `rdf.box.volume`.
Both arrays have the same length. -/
structure Rdf where
  R : List ℝ
  g : List ℝ
  volume : ℝ

/-- The sum on line 61, `np.sum((rdf.RDF - 1) * rdf.R * np.sin(wave_number * rdf.R))`. -/
noncomputable def radialSum (rdf : Rdf) (k : ℝ) : ℝ :=
  (List.zipWith (fun r g => (g - 1) * r * Real.sin (k * r)) rdf.R rdf.g).sum

open Classical in
/-- `_static_structure_factor`, lines 57-63.  `rdf.R[1]` is an IndexError when there are not two bins.  The
division on line 62 is one of Python numbers, that on line 63 one of a numpy float (`np.seterr` is set to raise,
relaxations.py:31). -/
noncomputable def staticStructureFactor (rdf : Rdf) (k : ℝ) (numParticles : ℕ) : Except PyErr ℝ :=
  match rdf.R with
  | r0 :: r1 :: _ =>
    let dr := r1 - r0
    let integral := dr * radialSum rdf k
    if rdf.volume = 0 then .error .zeroDivisionError
    else
      let density := numParticles / rdf.volume
      if k = 0 then .error .floatingPointError
      else .ok (1 + 4 * Real.pi * density / k * integral)
  | _ => .error .indexError

/-- `np.linspace(0.5, 20, 200)`, line 82. -/
noncomputable def waveGrid : List ℝ :=
  (List.range 200).map (fun (i : ℕ) => 1 / 2 + (i : ℝ) * ((20 - 1 / 2) / 199))

/-- The loop of lines 83-84; ends with the first exception. -/
noncomputable def ssfLoop (rdf : Rdf) (n : ℕ) : List ℝ → Except PyErr (List ℝ)
  | [] => .ok []
  | x :: xs =>
    match staticStructureFactor rdf x n with
    | .error e => .error e
    | .ok y =>
      match ssfLoop rdf n xs with
      | .error e => .error e
      | .ok ys => .ok (y :: ys)

open Classical in
/-- `np.argmax`: the position of the first maximum, from position `i` on with the best so far. -/
noncomputable def argmaxFrom : List ℝ → (i best : ℕ) → (val : ℝ) → ℕ
  | [], _, best, _ => best
  | y :: ys, i, best, val =>
    if val < y then argmaxFrom ys (i + 1) i y else argmaxFrom ys (i + 1) best val

/-- `np.argmax`; a ValueError for no values, `none`. -/
noncomputable def argmax : List ℝ → Option ℕ
  | [] => none
  | y :: ys => some (argmaxFrom ys 1 0 y)

/-- The largest distance of the radial distribution function, lines 73-75. -/
noncomputable def searchRadius (b : Box) : ℝ :=
  let rmax := min (b.Lx / (22 / 10)) (b.Ly / (22 / 10))
  if b.is2D then rmax else min rmax (b.Lz / (22 / 10))

/-- `calculate_wave_number`, lines 66-86. -/
noncomputable def calculateWaveNumber (rdf : Box → ℝ → ℝ → List V3 → Except PyErr Rdf) (b : Box)
    (positions : List V3) : Except PyErr ℝ :=
  match rdf b (searchRadius b / 200) (searchRadius b) positions with
  | .error e => .error e
  | .ok r =>
    match ssfLoop r positions.length waveGrid with
    | .error e => .error e
    | .ok ssf =>
      match argmax ssf with
      | none => .error .valueError
      | some i =>
        match waveGrid[i]? with
        | some x => .ok x
        | none => .error .indexError

end Verif.Wave
