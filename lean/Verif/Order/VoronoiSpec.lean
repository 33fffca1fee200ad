import Mathlib.Analysis.Complex.Norm
import Mathlib.Data.Set.Card
import Verif.Order.VoronoiModel
/-!
# Vocabulary for C113: Voronoi neighbours in the periodic plane

Points of the plane are complex numbers.
-/

namespace Verif.Order

open Verif.Motion

/-- The place of a molecule in the plane. -/
def plane (p : V3) : ℂ := ⟨p.1, p.2.1⟩

/-- All periodic images of all molecules. -/
def periodic (b : Box) (pos : List V3) : Set ℂ :=
  {z | ∃ p ∈ pos, ∃ m n : ℤ, z = plane p + m * (⟨b.Lx, 0⟩ : ℂ) + n * (⟨b.xy * b.Ly, b.Ly⟩ : ℂ)}

/-- `x` is on the boundary of the Voronoi cells of `p` and `q` among the points `S`: as far from one as from
the other, and no point of `S` is nearer. -/
def OnEdge (S : Set ℂ) (p q x : ℂ) : Prop := dist x p = dist x q ∧ ∀ r ∈ S, dist x p ≤ dist x r

/-- The cells of `p` and `q` have an edge in common, not just a corner. -/
def Adjacent (S : Set ℂ) (p q : ℂ) : Prop := p ≠ q ∧ q ∈ S ∧ ∃ x y, x ≠ y ∧ OnEdge S p q x ∧ OnEdge S p q y

/-- What is assumed of freud: the counts are the numbers of Voronoi neighbours among the molecules
together with some of their images, at least those up to `buff` from a molecule. -/
def CountsWithin (b : Box) (buff : ℝ) (pos : List V3) (counts : List Nat) : Prop :=
  ∃ E : Set ℂ, E ⊆ periodic b pos ∧
    (∀ p ∈ pos, ∀ z ∈ periodic b pos, dist z (plane p) ≤ buff → z ∈ E) ∧
    counts.length = pos.length ∧
    ∀ (i : Nat) (p : V3), pos[i]? = some p → ∃ c, counts[i]? = some c ∧
      (c : ℕ∞) = {q | Adjacent E (plane p) q}.encard

/-- Every place is within `R` of a molecule or an image of one. -/
def Covers (b : Box) (pos : List V3) (R : ℝ) : Prop := ∀ x : ℂ, ∃ z ∈ periodic b pos, dist x z ≤ R

end Verif.Order
