import Verif.Gsd.Spec
/-!
# Exceptions of a file other than that of a corrupt frame
-/

namespace Verif.Gsd

/-- What one expects of a reader (linear for `linear = none`): when reading a frame of the file raises an
exception other than RuntimeError (that of a corrupt frame, which is passed over), and none of the frames
before is beyond the limit, the caller gets the frames before and then the exception. -/
def ErrorReaches (α : Type) (linear : Option Int) : Prop :=
  ∀ (pre rest : List (Raw α)) (e : PyErr) (m interval kmax : Int), e ≠ .runtimeError → OnlyCorrupt pre →
    Increasing (readable pre) → (∀ f ∈ readable pre, f.timestep ≤ m) → 0 ≤ m → 1 ≤ interval →
    readGsd (pre ++ .error e :: rest) (some m) linear interval kmax =
      ((readGsd pre (some m) linear interval kmax).1, some e)

/-- No frame lies strictly between the last two steps. -/
def NoneBeforeLast {α : Type} (frames : List (GFrame α)) (steps : List Int) (m : Int) : Prop :=
  ∀ f ∈ frames, f.timestep ∈ steps ∨ ∃ s ∈ steps, f.timestep < s ∧ s < m

/-- Every step up to the last frame has a frame. -/
def NoStepMissing {α : Type} (frames : List (GFrame α)) (steps : List Int) : Prop :=
  ∀ s ∈ steps, (∃ f ∈ frames, s ≤ f.timestep) → ∃ f ∈ frames, f.timestep = s

end Verif.Gsd
