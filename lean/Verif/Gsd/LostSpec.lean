import Verif.Gsd.Spec
/-!
# Frames and steps that go with each other, and those that do not

`frames` are the frames of a file and `steps` the steps of a series.
-/

namespace Verif.Gsd

variable {α : Type}

/-- The frames on the series. -/
def onSeries (frames : List (GFrame α)) (steps : List Int) : List (GFrame α) :=
  frames.filter (fun f => decide (f.timestep ∈ steps))

/-- The frames off the series, up to the last step `m`. -/
def offSeries (frames : List (GFrame α)) (steps : List Int) (m : Int) : List (GFrame α) :=
  frames.filter (fun f => decide (f.timestep ≤ m ∧ f.timestep ∉ steps))

/-- The steps that are missing: there is no frame for them, but there are later frames. -/
def missingSteps (frames : List (GFrame α)) (steps : List Int) : List Int :=
  steps.filter (fun s => decide ((∀ f ∈ frames, f.timestep ≠ s) ∧ ∃ f ∈ frames, s < f.timestep))

end Verif.Gsd
