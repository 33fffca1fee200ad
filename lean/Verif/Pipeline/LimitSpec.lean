import Verif.Gsd.Spec
import Verif.StepSize.Model
/-!
# Vocabulary for the limits on steps and keyframes
-/

namespace Verif.Pipeline

open Verif.Gsd Verif.StepSize

variable {α : Type}

/-- The frames handed out with keyframe `k`. -/
def given (k : Nat) (pairs : List (List Nat × GFrame α)) : List (GFrame α) :=
  (pairs.filter (fun p => decide (k ∈ p.1))).map Prod.snd

/-- Every readable frame up to step `m` is on the series of steps. -/
def NoneOff (raws : List (Raw α)) (m linear interval kmax : Int) : Prop :=
  ∀ f ∈ readable raws, f.timestep ≤ m → f.timestep ∈ (seriesList m linear interval kmax).map Prod.fst

/-- No step of the series before the end of the file is missing from it. -/
def NoneMissing (raws : List (Raw α)) (m linear interval kmax : Int) : Prop :=
  ∀ s ∈ (seriesList m linear interval kmax).map Prod.fst,
    (∃ f ∈ readable raws, s ≤ f.timestep) → ∃ f ∈ readable raws, f.timestep = s

end Verif.Pipeline
