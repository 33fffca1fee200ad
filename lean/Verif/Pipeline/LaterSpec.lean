import Verif.Gsd.Model
/-!
# A simulation that starts counting its steps from another number
-/

namespace Verif.Pipeline

open Verif.Gsd

variable {α : Type}

/-- The frame, with `c` more steps on the counter. -/
def later (c : Int) (f : GFrame α) : GFrame α := ⟨f.timestep + c, f.data⟩

/-- The file with `c` more steps on the counter throughout; what cannot be read still cannot. -/
def laterFile (c : Int) (raws : List (Raw α)) : List (Raw α) := raws.map (Except.map (later c))

end Verif.Pipeline
