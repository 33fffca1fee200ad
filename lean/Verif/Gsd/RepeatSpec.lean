import Verif.Gsd.Spec
/-!
# Files in which frames have been written more than once
-/

namespace Verif.Gsd

variable {α : Type}

/-- The second list of frames is the first one with frames repeated: each frame may be followed by others of the same
step, whatever they hold. -/
inductive Repeats : List (GFrame α) → List (GFrame α) → Prop
  | nil : Repeats [] []
  | cons (f : GFrame α) (again : List (GFrame α)) {l l' : List (GFrame α)}
      (same : ∀ g ∈ again, g.timestep = f.timestep) (rest : Repeats l l') : Repeats (f :: l) (f :: (again ++ l'))

end Verif.Gsd
