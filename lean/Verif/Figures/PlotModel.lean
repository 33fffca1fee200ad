import Verif.Figures.LegendModel
/-!
# Model of `plot_frame` and `plot_circles`, `src/sdanalysis/figures/configuration.py`

Lines cited without a file are lines of `figures/configuration.py`.  Of bokeh (assumed) only this is
modelled: a `ColumnDataSource` is an object holding columns, shared by all figures drawn from it; a
figure has a glyph for the circles, which refers to a source and has, in `fill_color`, the name of a
column or a mapper with factors and colours of its own; a source is true as a condition.
-/

namespace Verif.Figures

open Verif.Frame (View)
open Verif.Molecule (Mol)

variable {C : Type}

/-- A figure: which source its circles come from, and, when the colours are categories, the factors
and the palette of `factor_cmap`. -/
structure Fig (C : Type) where
  source : Nat
  mapper : Option (List String × List C)

/-- The categories of a column of colours, as text. -/
def categoriesOf (colour : List (Paint C)) : List String :=
  colour.filterMap (fun p => match p with
    | .category s => some s
    | .rgb _ => none)

/-- `plot_circles`, lines 45-83, for the source number `source` holding `data`.  Simplification: with
`categorical` the column `colour` holds categories, as it does when called by `plot_frame`. -/
def plotCircles (data : Data C) (source : Nat) (categorical : Bool) (factors : Option (List String))
    (colormap : List C) : Fig C where
  source := source
  mapper :=
    if categorical then some (factors.getD (npUnique (categoriesOf data.colour)), colormap) else none

/-- `plot_frame`, lines 162-213.  `sources` are the contents of all sources there are, `source` is
the number of the one given, if any, `category10` is `palettes.Category10_10`. -/
noncomputable def plotFrame (conv : Nat → Nat → Nat → C) (category10 : List C)
    (sources : List (Data C)) (frame : View) (orderFunction : Option (View → OrderArr))
    (orderList : Option OrderArr) (source : Option Nat) (molecule : Mol) (categorical : Bool)
    (factors : Option (List String)) (colormap : Option (List C)) :
    List (Data C) × Except PyErr (Fig C) :=
  match frame2data conv frame orderFunction orderList molecule categorical with
  | .error e => (sources, .error e)
  | .ok data =>
    match source with
    | some i => (sources.set i data,
        .ok (plotCircles data i categorical factors (colormap.getD category10)))
    | none => (sources ++ [data],
        .ok (plotCircles data sources.length categorical factors (colormap.getD category10)))

/-- The colour of a circle: what is in the column, or what the mapper gives. -/
inductive Ink (C : Type) where
  | column (p : Paint C)
  | mapped (c : C)

/-- How a figure colours the entry `p` of the column (bokeh, assumed); `missing` is `nan_color`. -/
def Fig.ink (missing : C) (fig : Fig C) (p : Paint C) : Ink C :=
  match fig.mapper with
  | none => .column p
  | some (factors, palette) =>
    match p with
    | .category s => .mapped (factorColour factors palette missing s)
    | .rgb _ => .mapped missing

/-- A circle of a figure. -/
structure Circle (C : Type) where
  x : ℝ
  y : ℝ
  radius : ℝ
  ink : Ink C

/-- The circles that a figure shows, from the contents of the sources (bokeh, assumed). -/
def Fig.picture (missing : C) (sources : List (Data C)) (fig : Fig C) : Option (List (Circle C)) :=
  match sources[fig.source]? with
  | none => none
  | some d => some (List.zipWith (fun (p : ℝ × ℝ) (r : ℝ × Paint C) =>
      ⟨p.1, p.2, r.1, fig.ink missing r.2⟩) (d.x.zip d.y) (d.radius.zip d.colour))

end Verif.Figures
