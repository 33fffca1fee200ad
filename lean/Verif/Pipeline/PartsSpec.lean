import Verif.Pipeline.ChainMaxSpec
/-!
# Vocabulary for a system made of two parts
-/

namespace Verif.Pipeline

open Verif.Motion Verif.Dynamics

/-- The quantity `q` of the row for the whole is the mean of those in the rows for the parts, weighted with the
numbers of molecules. -/
def Pooled (N₁ N₂ : ℕ) (q : Quantity) (part₁ part₂ whole : Dict Quantity Val) : Prop :=
  ∃ x₁ x₂, Reports part₁ q x₁ ∧ Reports part₂ q x₂ ∧ Reports whole q ((N₁ * x₁ + N₂ * x₂) / (N₁ + N₂))

/-- The quantity of the whole is not less than the lesser one of the parts. -/
def NotBelow (q : Quantity) (part₁ part₂ whole : Dict Quantity Val) : Prop :=
  ∀ x₁ x₂ x, Reports part₁ q x₁ → Reports part₂ q x₂ → Reports whole q x → min x₁ x₂ ≤ x

/-- The quantity of the whole is not more than the larger one of the parts. -/
def NotAbove (q : Quantity) (part₁ part₂ whole : Dict Quantity Val) : Prop :=
  ∀ x₁ x₂ x, Reports part₁ q x₁ → Reports part₂ q x₂ → Reports whole q x → x ≤ max x₁ x₂

/-- The trajectory of the whole from those of the parts: positions. -/
def joined {α : Type} {N₁ N₂ : ℕ} (f : ℕ → Fin N₁ → α) (g : ℕ → Fin N₂ → α) (i : ℕ) : Fin (N₁ + N₂) → α :=
  Fin.append (f i) (g i)

/-- Orientations of the whole. -/
def joinedO {N₁ N₂ : ℕ} (f : ℕ → Option (Fin N₁ → Quat)) (g : ℕ → Option (Fin N₂ → Quat)) (i : ℕ) :
    Option (Fin (N₁ + N₂) → Quat) :=
  match f i, g i with
  | some p, some q => some (Fin.append p q)
  | _, _ => none

end Verif.Pipeline
