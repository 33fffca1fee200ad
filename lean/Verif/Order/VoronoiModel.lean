import Verif.Order.Model
/-!
# The orderings of `src/sdanalysis/order.py` by Voronoi neighbours and by a trained model
-/

namespace Verif.Order

open Verif.Motion

/-- `freud.voronoi.Voronoi(box, buff).computeNeighbors(position).nlist.neighbor_counts`. -/
abbrev Voronoi := Box → ℝ → List V3 → List Nat

/-- `compute_voronoi_neighs`, lines 312-315.  The box is two dimensional whatever the configuration. -/
def computeVoronoiNeighs (vor : Voronoi) (box : List ℝ) (position : List V3) : Except PyErr (List Nat) :=
  match createFreudBox box true with
  | .error e => .error e
  | .ok b => .ok (vor b 5 position)

/-- The function made by `create_neigh_ordering`, lines 150-152. -/
def neighOrdering (vor : Voronoi) (neighbours : Nat) (box : List ℝ) (position : List V3) :
    Except PyErr (List Bool) :=
  match computeVoronoiNeighs vor box position with
  | .error e => .error e
  | .ok c => .ok (c.map (fun n => decide (n = neighbours)))

/-- The function made by `create_ml_ordering`, lines 89-121.  `predict` is the method of the model that was
loaded. -/
noncomputable def mlOrdering {L : Type} (freud : Freud) (predict : List (List ℝ) → Except PyErr (List L))
    (box : List ℝ) (position : List V3) (orientation : List Quat) : Except PyErr (List L) :=
  match relativeOrientations freud box position orientation 3.5 8 with
  | .error e => .error e
  | .ok x => predict x

end Verif.Order
