import Verif.Figures.Model
/-!
# Model of the legend of the viewer and of the colours of categories

`src/sdanalysis/figures/interactive_config.py`, `create_legend`, and
`src/sdanalysis/figures/configuration.py`, `plot_circles`.  The colour mappers are those of bokeh
(assumed): only which colour belongs to a value is modelled, not how it is drawn.
-/

namespace Verif.Figures

variable {C : Type}

/-- `LinearColorMapper(palette, low, high)` of bokeh: the range is divided into as many equal parts
as there are colours; what is outside it has the first or the last colour.  `none` when there are no
colours. -/
noncomputable def linearColour (palette : List C) (low high x : ℝ) : Option C :=
  if x = high then palette[palette.length - 1]?
  else
    let key := ⌊(x - low) * (1 / (high - low)) / (1 / palette.length)⌋
    if key < 0 then palette[0]?
    else if (palette.length : ℤ) - 1 < key then palette[palette.length - 1]?
    else palette[key.toNat]?

/-- The bar "Orientation" of the legend: the colour at the value `a`.  `interactive_config.py`, lines
381 and 390-401. -/
noncomputable def legendOrientation (conv : Nat → Nat → Nat → C) (a : ℝ) : Option C :=
  linearColour (createColours conv false) (-Real.pi) Real.pi a

/-- The labels of the bar "Classification", with the values they stand at, lines 408-409. -/
noncomputable def classLabels : List (ℝ × String) := [(1 / 2, "Crystal"), (3 / 2, "Liquid")]

/-- The bar "Classification" of the legend: the colour at the value `x`, lines 382-384 and 402-415.
`conv` stands for `hpluv_to_hex` as well. -/
noncomputable def legendClass (conv : Nat → Nat → Nat → C) (x : ℝ) : Option C :=
  linearColour [conv 0 0 60, conv 0 0 80] 0 2 x

/-- `np.unique` of texts: each once, in order. -/
def npUnique (l : List String) : List String := Molecule.sortStrings l.dedup

/-- `factor_cmap(field_name, factors, palette)` of bokeh: the colour of a category is the one at its
place among the factors; `missing` (`nan_color`) for a category that is not among them or has no
colour in the palette. -/
def factorColour (factors : List String) (palette : List C) (missing : C) (s : String) : C :=
  match factors.idxOf? s with
  | some k => palette[k]?.getD missing
  | none => missing

/-- The colours of the circles of categories `column`, `configuration.py`, `plot_circles`, lines
59-65.  `colormap` has ten colours unless given, lines 50 and 188-189. -/
def circleColours (factors : Option (List String)) (colormap : List C) (missing : C)
    (column : List String) : List C :=
  column.map (factorColour (factors.getD (npUnique column)) colormap missing)

end Verif.Figures
