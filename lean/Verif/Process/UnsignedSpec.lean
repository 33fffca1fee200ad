import Verif.Process.Spec
/-!
# Vocabulary for C117
-/

namespace Verif.Process

variable {ι Φ D R ρ σ ν : Type} [DecidableEq ι]

/-- No frame of a keyframe has a step before that of the first frame of the keyframe. -/
def Forward (stamp : Φ → Int) (visits : List (ι × Φ)) : Prop :=
  ∀ k g, (framesOf k visits).head? = some g → ∀ f ∈ framesOf k visits, stamp g ≤ stamp f

/-- `E'` has the trackers of `E`, which remember the step of their first frame, except that they raise
FloatingPointError for a frame before it. -/
structure Refuses (E E' : Env Φ D R ρ σ ν) (stamp : Φ → Int) (start : D → Int) (begun : R → Int) :
    Prop where
  numPos : E'.numPos = E.numPos
  newDyn : E'.newDyn = E.newDyn
  newRelax : E'.newRelax = E.newRelax
  custom : E'.custom = E.custom
  summary : E'.summary = E.summary
  simVars : E'.simVars = E.simVars
  after : ∀ d f, start d ≤ stamp f → E'.computeAll d f = E.computeAll d f
  afterRelax : ∀ r f, begun r ≤ stamp f → E'.relaxAdd r f = E.relaxAdd r f
  before : ∀ d f row, stamp f < start d → (E.computeAll d f).2 = .ok row →
    (E'.computeAll d f).2 = .error .floatingPointError
  start_new : ∀ f d, E.newDyn f = .ok d → start d = stamp f
  start_keep : ∀ d f, start (E.computeAll d f).1 = start d
  begun_new : ∀ f r, E.newRelax f = .ok r → begun r = stamp f
  begun_keep : ∀ r f, begun (E.relaxAdd r f).1 = begun r
  begun_custom : ∀ set, E.custom = some set → ∀ r, begun (set r).1 = begun r

end Verif.Process
