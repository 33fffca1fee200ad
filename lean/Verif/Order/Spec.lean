import Verif.Order.Model
/-!
# Vocabulary for the properties of the order parameters
-/

namespace Verif.Order

open Quaternion Verif.Motion

/-- Inner product of two quaternions. -/
def dot (p q : Quat) : ℝ := p.re * q.re + p.imI * q.imI + p.imJ * q.imJ + p.imK * q.imK

/-- All quaternions have unit length. -/
def AllUnit (o : List Quat) : Prop := ∀ q ∈ o, dot q q = 1

/-- Contribution of neighbour `j` to the order of a molecule with orientation `q`. -/
def contribution (o : List Quat) (q : Quat) (j : Nat) : ℝ :=
  match o[j]? with
  | some p => (2 * dot p q ^ 2 - 1) ^ 2
  | none => 1

/-- Order of a molecule with orientation `q` and the given neighbours. -/
noncomputable def orderSpec (o : List Quat) (q : Quat) (row : List Nat) : ℝ :=
  (row.map (contribution o q)).sum / row.length

/-- Rotation by `a` about the z axis. -/
noncomputable def zRot (a : ℝ) : Quat := ⟨Real.cos (a / 2), 0, 0, Real.sin (a / 2)⟩

/-- Squared distance of the nearest images of particles `i` and `j`. -/
noncomputable def distSq (b : Box) (pos : List V3) (i j : Nat) : ℝ :=
  let d := b.wrap (pos.getD j 0 - pos.getD i 0)
  d.1 ^ 2 + d.2.1 ^ 2 + d.2.2 ^ 2

/-- `row` lists the at most `k` nearest particles within `r` of particle `i`. -/
structure IsNearest (b : Box) (pos : List V3) (r : ℝ) (k i : Nat) (row : List (Nat × ℝ)) : Prop where
  len : row.length ≤ k
  nodup : (row.map Prod.fst).Nodup
  sound : ∀ x ∈ row, x.1 < pos.length ∧ x.1 ≠ i ∧ x.2 = distSq b pos i x.1 ∧ x.2 < r ^ 2
  complete : ∀ j, j < pos.length → j ≠ i → distSq b pos i j < r ^ 2 → j ∉ row.map Prod.fst →
    row.length = k ∧ ∀ x ∈ row, x.2 ≤ distSq b pos i j

/-- What freud promises. -/
def Freud.Correct (freud : Freud) : Prop :=
  ∀ b pos r k, (freud b pos r k).rows.length = pos.length ∧
    ∀ i row, (freud b pos r k).rows[i]? = some row → IsNearest b pos r k i row

/-- The particles within `r` of particle `i`. -/
noncomputable def within (b : Box) (pos : List V3) (r : ℝ) (i : Nat) : Finset Nat :=
  (Finset.range pos.length).filter (fun j => j ≠ i ∧ distSq b pos i j < r ^ 2)

end Verif.Order
