import Verif.Figures.LegendModel
import Verif.Figures.Spec
/-!
# Vocabulary for C125 and C126
-/

namespace Verif.Figures

variable {C : Type}

/-- A molecule at angle `a` is drawn, as part of the crystal, in colour `c`. -/
def Drawn (conv : Nat → Nat → Nat → C) (a : ℝ) (c : C) : Prop :=
  colourOrientation conv [a] false = .ok [c]

/-- The hues of the dark palette can be told apart. -/
def HuesDiffer (conv : Nat → Nat → Nat → C) : Prop :=
  ∀ h h' : Nat, h < 360 → h' < 360 → conv h 100 60 = conv h' 100 60 → h = h'

/-- `palette` has colours that differ from each other. -/
def Distinct (palette : List C) : Prop :=
  ∀ i j : Nat, ∀ c, palette[i]? = some c → palette[j]? = some c → i = j

/-- The circles of two categories have colours of the palette, and not the same. -/
def OwnColours (colour : String → C) (palette : List C) (column : List String) : Prop :=
  (∀ s ∈ column, colour s ∈ palette) ∧
    ∀ s ∈ column, ∀ t ∈ column, colour s = colour t → s = t

end Verif.Figures
