import Mathlib.Algebra.Order.Field.Rat
import Verif.Relax.Model
/-!
# Model of the relaxations averaged over the particles of a molecule,
`src/sdanalysis/dynamics/relaxations.py:297-305`

Conventions as in `Verif.Relax.Model`; the mean of integers is a rational number.
-/

namespace Verif.Relax

variable {K : Type} [Field K] [LinearOrder K]

/-- `StructRelaxations`, relaxations.py:297-298, with `molecule.num_particles`. -/
structure Struct (K : Type) where
  base : First K
  particles : Nat

/-- `StructRelaxations.__init__`, relaxations.py:300-302: an entry for each particle, and the type left
at translation. -/
def Struct.new (n : Nat) (threshold : Fl K) (particles : Nat) : Struct K :=
  ⟨First.new (n * particles) threshold .translation, particles⟩

/-- `MolecularRelaxation.add`, inherited, relaxations.py:209-218. -/
def Struct.add (r : Struct K) (t : Int) (dist : List (Fl K)) : Except PyErr (Struct K) :=
  match r.base.add t dist with
  | .error e => .error e
  | .ok b => .ok { r with base := b }

/-- `StructRelaxations.get_status`, relaxations.py:304-305.  `reshape((-1, p))` puts `p` entries one after
the other in each row; for `p = 0`, or a length that `p` does not divide, it is a ValueError. -/
def Struct.getStatus (r : Struct K) : Except PyErr (List Rat) :=
  if r.particles = 0 ∨ r.base.status.length % r.particles ≠ 0 then .error .valueError
  else .ok ((List.range (r.base.status.length / r.particles)).map (fun m =>
    (((r.base.status.drop (m * r.particles)).take r.particles).map (fun (s : Int) => (s : Rat))).sum /
      r.particles))

end Verif.Relax
