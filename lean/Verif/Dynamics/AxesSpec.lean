import Verif.Dynamics.Spec
/-!
# Vocabulary for the choice of axes and the direction of time
-/

namespace Verif.Dynamics

open Verif.Motion

/-- A change of the axes in the plane: x reversed, y reversed, or the two exchanged.  These generate
all changes that take axes to axes: a quarter turn is an exchange and a reversal. -/
inductive Flip where
  | x
  | y
  | swap
  deriving DecidableEq

/-- A vector in the new axes. -/
def Flip.vec : Flip → V3 → V3
  | .x, v => (-v.1, v.2.1, v.2.2)
  | .y, v => (v.1, -v.2.1, v.2.2)
  | .swap, v => (v.2.1, v.1, v.2.2)

/-- The cell in the new axes; the exchange is meant for cells whose first two edges are along the
axes. -/
def Flip.cell : Flip → Cell → Cell
  | .x, c => ⟨c.Lx, c.Ly, c.Lz, -c.xy, -c.xz, c.yz, c.is2D⟩
  | .y, c => ⟨c.Lx, c.Ly, c.Lz, -c.xy, c.xz, -c.yz, c.is2D⟩
  | .swap, c => ⟨c.Ly, c.Lx, c.Lz, c.xy, c.yz, c.xz, c.is2D⟩

/-- Several changes, the last of the list first. -/
def newVec (gs : List Flip) (v : V3) : V3 := gs.foldr Flip.vec v

/-- The cell after several changes. -/
def newCell (gs : List Flip) (c : Cell) : Cell := gs.foldr Flip.cell c

/-- An angle after several changes: each reverses the sense of rotation. -/
def newAngle (gs : List Flip) (θ : ℝ) : ℝ := gs.foldr (fun _ θ => -θ) θ

/-- The vector is not half an edge of the cell, up to whole edges, in any direction: it has one
shortest image along each edge. -/
def NoTie (c : Cell) (v : V3) : Prop :=
  ∀ α β γ : ℝ, c.flat v = c.comb α β γ →
    ∀ k : ℤ, α ≠ k + 1 / 2 ∧ β ≠ k + 1 / 2 ∧ (c.is2D = false → γ ≠ k + 1 / 2)

/-- Orientations in the plane from the angles, or none. -/
noncomputable def planar {N : ℕ} (θ : Option (ℕ → Fin N → ℝ)) (i : ℕ) : Option (Fin N → Quat) :=
  θ.map (fun θ m => zRot (θ i m))

/-- No molecule makes exactly half a turn, up to whole turns, between one of the frames `0`, …, `n` and the next. -/
def NoHalfTurn {N : ℕ} (θ : Option (ℕ → Fin N → ℝ)) (n : ℕ) : Prop :=
  ∀ θ', θ = some θ' → ∀ i ≤ n, ∀ m, Real.cos (θ' (i + 1) m - θ' i m) ≠ -1

/-- The trajectory of frames `0`, …, `n` backwards. -/
def backwards {α : Type} (n : ℕ) (s : ℕ → α) : ℕ → α := fun i => s (n - i)

end Verif.Dynamics
