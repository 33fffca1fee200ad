import Verif.Order.Spec
import Verif.Order.FrameModel
import Verif.Frame.Spec
/-!
# Vocabulary for C176
-/

namespace Verif.Order

open Verif.Motion Verif.Frame

/-- `x` is the fraction of the entries that are `true`. -/
def IsFraction (x : ℝ) (marks : List Bool) : Prop :=
  marks ≠ [] ∧ x * marks.length = marks.count true

/-- What `order` prints for a snapshot is the fraction of its molecules that the ordering with
threshold 0.9 marks. -/
def OrderAgrees (freud : Freud) (a : Arith) (s : Snapshot) : Prop :=
  ∀ l marks, orderSnapshot freud s = .ok l → orderingOfSnapshot freud a 0.9 s = .ok marks →
    IsFraction l.2 marks

end Verif.Order
