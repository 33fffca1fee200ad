import Verif.Pipeline.SessionModel
/-!
# What C175 asks for
-/

namespace Verif.Pipeline

/-- Every row of `relaxations` is of a keyframe, temperature and pressure which are in the table of the
molecules. -/
def SamePoints (f : Output) : Prop :=
  ∀ res, f.relaxations = some res → ∀ w ∈ res,
    ∃ rs, Dict.get? f.tables "molecular_relaxations" = some rs ∧
      ∃ r ∈ rs, recVal r "keyframe" = some w.key.1 ∧ recVal r "temperature" = some w.key.2.1 ∧
        recVal r "pressure" = some w.key.2.2

/-- The table `relaxations` is what is obtained from a file with nothing but the other two tables. -/
def Current (signals : Bool) (fit : List (ℝ × ℝ) → Except PyErr RelaxTime.Fit)
    (hmean : List ℝ → Except PyErr ℝ) (f : Output) : Prop :=
  ∀ res, f.relaxations = some res →
    compRelaxationsRun signals fit hmean ⟨f.tables, none⟩ = (⟨f.tables, some res⟩, none)

end Verif.Pipeline
