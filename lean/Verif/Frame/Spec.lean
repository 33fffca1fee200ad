import Verif.Frame.Model
/-!
# Vocabulary for the properties of frames
-/

namespace Verif.Frame

open Verif.Motion (V3 Quat)

/-- `m` is the largest body number and `m + 1` is a possible number of molecules. -/
def UsableMax (body : Option (List Int)) (N m : Int) : Prop :=
  ∃ l, body = some l ∧ m ∈ l ∧ (∀ b ∈ l, b ≤ m) ∧ 1 ≤ m + 1 ∧ m + 1 ≤ N

/-- The number of molecules of a snapshot of `N` particles. -/
def IsNumMols (body : Option (List Int)) (N n : Int) : Prop :=
  (∃ m, UsableMax body N m ∧ n = m + 1) ∨ ((¬ ∃ m, UsableMax body N m) ∧ n = N)

/-- The arrays of a snapshot have one row per particle. -/
structure Complete (s : Snapshot) : Prop where
  position : (s.position.length : Int) = s.N
  orientation : (s.orientation.length : Int) = s.N
  image : ∀ im, s.image = some im → (im.length : Int) = s.N

/-- Every array but the images has one row per molecule. -/
structure View.Aligned (v : View) : Prop where
  position : (v.position.length : Int) = v.len
  x : (v.x.length : Int) = v.len
  y : (v.y.length : Int) = v.len
  z : (v.z.length : Int) = v.len
  orientation : (v.orientation.length : Int) = v.len
  rows : ∀ (i : Nat) (p : V3), v.position[i]? = some p →
    v.x[i]? = some p.1 ∧ v.y[i]? = some p.2.1 ∧ v.z[i]? = some p.2.2

/-- So do the images. -/
def View.ImageAligned (v : View) : Prop := ∀ im, v.image = some im → (im.length : Int) = v.len

end Verif.Frame
