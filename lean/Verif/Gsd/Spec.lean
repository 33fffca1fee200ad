import Verif.Gsd.Model
/-!
# Vocabulary for the properties of the gsd readers
-/

namespace Verif.Gsd

variable {α : Type}

/-- The frames of the file that can be read, in file order. -/
def readable (raws : List (Raw α)) : List (GFrame α) :=
  raws.filterMap (fun r => match r with | .ok f => some f | .error _ => none)

/-- The frame at position `i` of the file, when there is one and it can be read. -/
def readableAt (raws : List (Raw α)) (i : Nat) : Option (GFrame α) :=
  match raws[i]? with
  | some (Except.ok f) => some f
  | _ => none

/-- The file without its corrupt frames. -/
def withoutCorrupt (raws : List (Raw α)) : List (Raw α) :=
  raws.filter (fun r => match r with | .error .runtimeError => false | _ => true)

/-- Every unreadable frame is a corrupt one (reading it raises RuntimeError). -/
def OnlyCorrupt (raws : List (Raw α)) : Prop :=
  ∀ r ∈ raws, ∀ e, r = .error e → e = .runtimeError

/-- The frames are in increasing time order. -/
def Increasing (frames : List (GFrame α)) : Prop :=
  frames.Pairwise (fun a b => a.timestep < b.timestep)

end Verif.Gsd
