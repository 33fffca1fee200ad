import Mathlib.Algebra.BigOperators.Fin
import Verif.Dynamics.Model
import Verif.Motion.Spec
/-!
# Vocabulary for the properties of `Dynamics`
-/

namespace Verif.Dynamics

open Verif.Motion

/-- The average over `N` molecules. -/
noncomputable def avg {N : ℕ} (f : Fin N → ℝ) : ℝ := (∑ m, f m) / N

/-- The squared length of a vector. -/
def len2 (v : V3) : ℝ := v.1 * v.1 + v.2.1 * v.2.1 + v.2.2 * v.2.2

/-- The length of a vector. -/
noncomputable def len (v : V3) : ℝ := Real.sqrt (len2 v)

/-- The dictionary has the number `x` under `k`. -/
def Reports (row : Dict Quantity Val) (k : Quantity) (x : ℝ) : Prop :=
  Dict.get? row k = some (.num (some x))

/-- The dictionary has NaN under `k`. -/
def ReportsNaN (row : Dict Quantity Val) (k : Quantity) : Prop :=
  Dict.get? row k = some (.num none)

/-- The object made from a first frame, after adding further ones; or the first exception. -/
noncomputable def addFrames : Dyn → List Frame → Except PyErr Dyn
  | d, [] => .ok d
  | d, f :: fs =>
    match d.add f.1 f.2 with
    | (_, some e) => .error e
    | (d', none) => addFrames d' fs

/-- What `compute_all` gives for the frame `last` at time `t`, after `Dynamics` was made from the
frame `first` at time `t0` and the frames `rest` were added. -/
noncomputable def rowAt (argsort : List ℝ → List ℕ) (box : List ℝ) (mol : Option Mol)
    (k : Option ℝ) (res : ℕ) (t0 : ℤ) (first : Frame) (rest : List Frame) (t : ℤ) (last : Frame)
    (sc : Bool) : Except PyErr (Dict Quantity Val) :=
  match Dyn.new t0 box first.1 first.2 mol k res with
  | .error e => .error e
  | .ok d =>
    match addFrames d rest with
    | .error e => .error e
    | .ok d => (d.computeAll argsort t last.1 last.2 sc).2

/-- `argsort l` is a permutation of the indices of `l` that puts the values in ascending order. -/
def Sorts (argsort : List ℝ → List ℕ) : Prop :=
  ∀ l : List ℝ, (argsort l).Perm (List.range l.length) ∧
    (argsort l).Pairwise (fun i j => ∀ x y, l[i]? = some x → l[j]? = some y → x ≤ y)

/-- The vector `v` turned by the unit quaternion `q`, by the rotation matrix of `q`. -/
def turned (q : Quat) (v : V3) : V3 :=
  let w := q.re
  let x := q.imI
  let y := q.imJ
  let z := q.imK
  ((w ^ 2 + x ^ 2 - y ^ 2 - z ^ 2) * v.1 + 2 * (x * y - w * z) * v.2.1 +
      2 * (x * z + w * y) * v.2.2,
   2 * (x * y + w * z) * v.1 + (w ^ 2 - x ^ 2 + y ^ 2 - z ^ 2) * v.2.1 +
      2 * (y * z - w * x) * v.2.2,
   2 * (x * z - w * y) * v.1 + 2 * (y * z + w * x) * v.2.1 +
      (w ^ 2 - x ^ 2 - y ^ 2 + z ^ 2) * v.2.2)

/-- The vector `v` turned about the z axis by the angle `φ`. -/
noncomputable def turnedZ (φ : ℝ) (v : V3) : V3 :=
  (Real.cos φ * v.1 - Real.sin φ * v.2.1, Real.sin φ * v.1 + Real.cos φ * v.2.1, v.2.2)

/-- The vector `v` turned about the x axis by the angle `φ`. -/
noncomputable def turnedX (φ : ℝ) (v : V3) : V3 :=
  (v.1, Real.cos φ * v.2.1 - Real.sin φ * v.2.2, Real.sin φ * v.2.1 + Real.cos φ * v.2.2)

open Classical in
/-- The proportion of the particles `(m, p)` that stayed closer than `dist` to where they were, when
particle `p` of molecule `m` moved by `move m p`. -/
noncomputable def stayed {N K : ℕ} (move : Fin N → Fin K → V3) (dist : ℝ) : ℝ :=
  ((Finset.univ.filter (fun a : Fin N × Fin K => len (move a.1 a.2) < dist)).card : ℝ) / (N * K)

/-- A displacement known to be shorter than `dist`; NaN is not. -/
def Below (dist : ℝ) : Option ℝ → Prop
  | some x => x < dist
  | none => False

/-- The second displacement is as large as the first, or is NaN. -/
def Grew : Option ℝ → Option ℝ → Prop
  | _, none => True
  | some x, some y => x ≤ y
  | none, some _ => False

/-- Molecule `m` is among the `k` with the largest values of `f`: fewer than `k` have a larger
one. -/
def Mobile {N : ℕ} (f : Fin N → ℝ) (k : ℕ) (m : Fin N) : Prop :=
  (Finset.univ.filter (fun j => f m < f j)).card < k

end Verif.Dynamics
