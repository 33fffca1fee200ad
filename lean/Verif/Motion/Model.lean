import Mathlib.Algebra.Quaternion
import Mathlib.Analysis.SpecialFunctions.Complex.Arg
import Mathlib.Analysis.SpecialFunctions.Trigonometric.Inverse
import Verif.Py
/-!
# Model of `TrackedMotion`, `src/sdanalysis/dynamics/_util.py:89-156`

Floats are real numbers.  An array of shape `(N, 3)` is a list of `V3`, an array of shape `(N, 4)`
a list of quaternions.  Lines cited without a file are lines of `dynamics/_util.py`.
-/

namespace Verif.Motion

open Quaternion

/-- A row of an array of shape `(N, 3)`. -/
abbrev V3 := ℝ × ℝ × ℝ

/-- A row of an array of shape `(N, 4)`: the quaternion `(w, x, y, z)`. -/
abbrev Quat := ℍ[ℝ]

/-- `freud.box.Box`: lengths, tilt factors and whether it is two dimensional. -/
structure Box where
  Lx : ℝ
  Ly : ℝ
  Lz : ℝ
  xy : ℝ
  xz : ℝ
  yz : ℝ
  is2D : Bool

/-- `create_freud_box`, util.py:178-193.  The array `box` has at least three entries (else the
unpacking on line 187 is a ValueError); tilt factors are used only when it has exactly six.
`Lz` of a two dimensional freud box is 0. -/
def createFreudBox (box : List ℝ) (is2D : Bool) : Except PyErr Box :=
  match box with
  | Lx :: Ly :: Lz :: rest =>
    let t : ℝ × ℝ × ℝ :=
      match rest with
      | [xy, xz, yz] => (xy, xz, yz)
      | _ => (0, 0, 0)
    .ok (if is2D then ⟨Lx, Ly, 0, t.1, 0, 0, true⟩ else ⟨Lx, Ly, Lz, t.1, t.2.1, t.2.2, false⟩)
  | _ => .error .valueError

/-- freud `Box::makeFraction` relative to the centre of the cell: coordinates along the three
cell vectors, as fractions of them.  The third is 0 in a two dimensional box. -/
noncomputable def Box.frac (b : Box) (v : V3) : V3 :=
  ((v.1 - ((b.xz - b.yz * b.xy) * v.2.2 + b.xy * v.2.1)) / b.Lx,
   (v.2.1 - b.yz * v.2.2) / b.Ly,
   if b.is2D then 0 else v.2.2 / b.Lz)

/-- freud `Box::makeCoordinates` relative to the centre of the cell. -/
noncomputable def Box.coord (b : Box) (f : V3) : V3 :=
  let z := f.2.2 * b.Lz
  let y := f.2.1 * b.Ly
  let x := f.1 * b.Lx
  (x + b.xy * y + b.xz * z, y + b.yz * z, if b.is2D then 0 else z)

/-- The representative of `t` modulo 1 in `[-1/2, 1/2)`. -/
noncomputable def wrap1 (t : ℝ) : ℝ := t - ⌊t + 1 / 2⌋

/-- freud `Box.wrap` of one vector. -/
noncomputable def Box.wrap (b : Box) (v : V3) : V3 :=
  let f := b.frac v
  b.coord (wrap1 f.1, wrap1 f.2.1, wrap1 f.2.2)

/-- A numpy binary operation on two arrays with rows, with broadcasting of a single row; other
shapes are a ValueError. -/
def bcast {α β γ : Type} (f : α → β → γ) (a : List α) (b : List β) : Except PyErr (List γ) :=
  if a.length = b.length then .ok (List.zipWith f a b)
  else match a, b with
    | [x], _ => .ok (b.map (f x))
    | _, [y] => .ok (a.map (fun x => f x y))
    | _, _ => .error .valueError

/-- A numpy in-place operation: the result must have the shape of the first array. -/
def inplace {α β : Type} (f : α → β → α) (a : List α) (b : List β) : Except PyErr (List α) :=
  match bcast f a b with
  | .ok r => if r.length = a.length then .ok r else .error .valueError
  | .error e => .error e

/-- `np.arctan2(y, x)`. -/
noncomputable def arctan2 (y x : ℝ) : ℝ := Complex.arg ⟨x, y⟩

/-- `rowan.to_euler` of one unit quaternion, in the default intrinsic zyx convention: the angles
about z, y and x read off the rotation matrix.  In gimbal lock the third angle is set to 0.  That
test is exact here, rowan compares with a tolerance. -/
noncomputable def toEuler (q : Quat) : V3 :=
  let w := q.re
  let x := q.imI
  let y := q.imJ
  let z := q.imK
  let m00 := w ^ 2 + x ^ 2 - y ^ 2 - z ^ 2
  let m01 := 2 * (x * y - w * z)
  let m10 := 2 * (x * y + w * z)
  let m11 := w ^ 2 - x ^ 2 + y ^ 2 - z ^ 2
  let m20 := 2 * (x * z - w * y)
  let m21 := 2 * (y * z + w * x)
  let m22 := w ^ 2 - x ^ 2 - y ^ 2 + z ^ 2
  let beta := Real.arcsin (-m20)
  if Real.cos beta = 0 then (arctan2 (-m01) m11, beta, 0)
  else (arctan2 m10 m00, beta, arctan2 m21 m22)

open Classical in
/-- `rowan.to_euler` of an array: a ValueError unless all quaternions have unit norm (rowan allows a
tolerance). -/
noncomputable def toEulerAll (qs : List Quat) : Except PyErr (List V3) :=
  if ∀ q ∈ qs, normSq q = 1 then .ok (qs.map toEuler) else .error .valueError

/-- `TrackedMotion`, lines 89-106. -/
structure Tracked where
  box : Box
  deltaT : List V3
  deltaR : List V3
  prevPos : List V3
  prevOri : Option (List Quat)

/-- `TrackedMotion.__init__`, lines 108-131. -/
def Tracked.new (box : Box) (position : List V3) (orientation : Option (List Quat)) :
    Except PyErr Tracked :=
  match orientation with
  | some o =>
    if o.length = 0 then .error .runtimeError
    else .ok ⟨box, position.map (fun _ => 0), position.map (fun _ => 0), position, some o⟩
  | none => .ok ⟨box, position.map (fun _ => 0), position.map (fun _ => 0), position, none⟩

/-- The rotation between two frames, lines 151-153: Euler angles of `orientation / previous`. -/
noncomputable def rotStep (prev orientation : List Quat) : Except PyErr (List V3) :=
  match bcast (fun q p => q * p⁻¹) orientation prev with
  | .ok r => toEulerAll r
  | .error e => .error e

/-- Line 149: the displacement after a new position. -/
noncomputable def transAdd (m : Tracked) (position : List V3) : Except PyErr (List V3) :=
  match bcast (fun p q => p - q) m.prevPos position with
  | .ok d => inplace (fun t w => t - w) m.deltaT (d.map m.box.wrap)
  | .error e => .error e

/-- Lines 150-153: the rotation after a new orientation. -/
noncomputable def rotAdd (m : Tracked) (orientation : Option (List Quat)) :
    Except PyErr (List V3) :=
  match m.prevOri, orientation with
  | some p, some o =>
    match rotStep p o with
    | .ok d => inplace (fun t w => t + w) m.deltaR d
    | .error e => .error e
  | _, _ => .ok m.deltaR

/-- `TrackedMotion.add`, lines 133-156: the object afterwards, also when an exception is raised. -/
noncomputable def Tracked.add (m : Tracked) (position : List V3) (orientation : Option (List Quat)) :
    Tracked × Option PyErr :=
  match transAdd m position with
  | .error e => (m, some e)
  | .ok dT =>
    match rotAdd m orientation with
    | .error e => ({ m with deltaT := dT }, some e)
    | .ok dR => (⟨m.box, dT, dR, position, orientation⟩, none)

end Verif.Motion
