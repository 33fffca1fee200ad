import Verif.Order.Model
import Verif.Frame.Model
/-!
# Model of `order` of run_analysis.py on a snapshot, beside an ordering on its `HoomdFrame`
-/

namespace Verif.Order

open Verif.Motion Verif.Frame

/-- The line that `order` prints for a snapshot, run_analysis.py:31-42: the arrays are those of
`snapshot.particles`, not those of a `HoomdFrame`. -/
noncomputable def orderSnapshot (freud : Freud) (s : Snapshot) : Except PyErr (Int × ℝ) :=
  orderLine freud ⟨s.step, s.box.array, s.position, s.orientation⟩

/-- `create_orient_ordering(threshold)(HoomdFrame(snapshot))`, order.py:124-128 and
frame.py:128-205. -/
noncomputable def orderingOfSnapshot (freud : Freud) (a : Arith) (threshold : ℝ) (s : Snapshot) :
    Except PyErr (List Bool) :=
  match hoomdFrame a s with
  | .error e => .error e
  | .ok v => orientOrdering freud threshold v.box v.position v.orientation

end Verif.Order
