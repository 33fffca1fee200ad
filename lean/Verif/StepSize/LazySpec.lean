import Verif.StepSize.LazyModel
/-!
# What it means that a lazy series delivers a list
-/

namespace Verif.StepSize

/-- Asked again and again, each time for as long as it takes, the series returns the steps of the
list, with the answers of `get_index()` given beside them, and then raises StopIteration. -/
def Produces : LazySeries → List (Int × List Nat) → Prop
  | s, [] => ∃ N, ∀ n ≥ N, s.next n = some (.error .stopIteration)
  | s, p :: l => ∃ N s', (∀ n ≥ N, s.next n = some (.ok (p.1, s'))) ∧ s'.getIndex = p.2 ∧
      Produces s' l

end Verif.StepSize
