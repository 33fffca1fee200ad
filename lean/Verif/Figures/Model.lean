import Verif.Angle.Model
import Verif.Frame.Model
import Verif.Molecule.Model
/-!
# Model of `src/sdanalysis/figures/configuration.py`

Lines cited without a file are lines of `figures/configuration.py`.  A colour is whatever
`hpluv_to_rgb` gives, a parameter here.
-/

namespace Verif.Figures

open Verif.Motion (V3 Quat)
open Verif.Frame (View)
open Verif.Molecule (Mol)
open Verif.Dynamics (orientation2positions)
open Verif.Angle (quaternion2z)

variable {C : Type}

/-- `_create_colours`, lines 28-38; `conv` is `hpluv_to_rgb` with the scaling to 256. -/
def createColours (conv : Nat → Nat → Nat → C) (light : Bool) : List C :=
  (List.range 360).map (fun hue => if light then conv hue 80 80 else conv hue 100 60)

/-- `x.astype(int)`: truncation towards zero. -/
noncomputable def astypeInt (x : ℝ) : Int := if 0 ≤ x then ⌊x⌋ else ⌈x⌉

/-- `array[i]` for an integer `i`: negative indices count from the end. -/
def npIndex (a : List C) (i : Int) : Except PyErr C :=
  if 0 ≤ i then
    match a[i.toNat]? with
    | some c => .ok c
    | none => .error .indexError
  else if -(a.length : Int) ≤ i then
    match a[(a.length + i).toNat]? with
    | some c => .ok c
    | none => .error .indexError
  else .error .indexError

/-- `colour_orientation`, lines 86-89. -/
noncomputable def colourOrientation (conv : Nat → Nat → Nat → C) (orientations : List ℝ)
    (light : Bool) : Except PyErr (List C) :=
  orientations.mapM (fun a => npIndex (createColours conv light) (astypeInt (a * 180 / Real.pi)))

/-- An array describing the ordering: numbers (for each whether it is non-zero, and its text), where
`native` says whether the data type is `int64`, `bool` or `float64`, the ones equal to the Python
types `int`, `bool` and `float`; or strings. -/
inductive OrderArr where
  | nums (native : Bool) (values : List (Bool × String))
  | strs (values : List String)

/-- `x.astype(str)`. -/
def OrderArr.text : OrderArr → List String
  | .nums _ v => v.map Prod.snd
  | .strs v => v

/-- What is used as an index: a boolean array, or the scalar `False` that comparing an array of
numbers with a string gives. -/
inductive Mask where
  | bools (l : List Bool)
  | scalarFalse

/-- `np.logical_not(order_list)`, line 135: not defined on strings. -/
def maskOfList : OrderArr → Except PyErr Mask
  | .nums _ v => .ok (.bools (v.map (fun x => !x.1)))
  | .strs _ => .error .typeError

/-- Lines 142-146: the molecules to colour lighter given the result of the order function. -/
def maskOfFunction : OrderArr → Mask
  | .nums true v => .bools (v.map (fun x => !x.1))
  | .nums false _ => .scalarFalse
  | .strs v => .bools (v.map (fun x => x == "liq"))

/-- `colour[mask] = light[mask]`: a boolean index of another length is an IndexError, the scalar
`False` selects nothing. -/
def maskedSet (colour light : List C) : Mask → Except PyErr (List C)
  | .scalarFalse => .ok colour
  | .bools l =>
    if l.length = colour.length then
      .ok (List.zipWith (fun (p : C × C) (m : Bool) => if m then p.2 else p.1) (colour.zip light) l)
    else .error .indexError

/-- Lines 132-148, for the molecules that the mask selects. -/
noncomputable def lighten (conv : Nat → Nat → Nat → C) (angle : List ℝ) (colour : List C)
    (m : Mask) : Except PyErr (List C) :=
  match colourOrientation conv angle true with
  | .error e => .error e
  | .ok light => maskedSet colour light m

/-- The colour of a molecule: a colour, or a category. -/
inductive Paint (C : Type) where
  | rgb (c : C)
  | category (s : String)

/-- The colours of the molecules, lines 122-148. -/
noncomputable def colours (conv : Nat → Nat → Nat → C) (orderFunction : Option (View → OrderArr))
    (orderList : Option OrderArr) (categorical : Bool) (frame : View) (angle : List ℝ) :
    Except PyErr (List (Paint C)) :=
  if categorical then
    match orderFunction, orderList with
    | some f, _ => .ok ((f frame).text.map .category)
    | none, some l => .ok (l.text.map .category)
    | none, none => .error .valueError
  else
    match colourOrientation conv angle false with
    | .error e => .error e
    | .ok colour =>
      match orderList, orderFunction with
      | some l, _ =>
        match maskOfList l with
        | .error e => .error e
        | .ok m => (lighten conv angle colour m).map (fun cs => cs.map .rgb)
      | none, some f =>
        (lighten conv angle colour (maskOfFunction (f frame))).map (fun cs => cs.map .rgb)
      | none, none => .ok (colour.map .rgb)

/-- The dictionary returned by `frame2data`. -/
structure Data (C : Type) where
  x : List ℝ
  y : List ℝ
  orientation : List ℝ
  radius : List ℝ
  colour : List (Paint C)

/-- `np.repeat(a, n)`: each entry `n` times; ValueError for negative `n`. -/
def npRepeat {α : Type} (a : List α) (n : Int) : Except PyErr (List α) :=
  if n < 0 then .error .valueError else .ok (a.flatMap (fun r => List.replicate n.toNat r))

/-- `frame2data`, lines 92-159.  `np.tile` repeats the whole array. -/
noncomputable def frame2data (conv : Nat → Nat → Nat → C) (frame : View)
    (orderFunction : Option (View → OrderArr)) (orderList : Option OrderArr) (molecule : Mol)
    (categorical : Bool) : Except PyErr (Data C) :=
  if orderFunction.isSome = true ∧ orderList.isSome = true then .error .valueError
  else
    match quaternion2z frame.orientation with
    | .error e => .error e
    | .ok angle =>
      match colours conv orderFunction orderList categorical frame angle with
      | .error e => .error e
      | .ok colour =>
        match orientation2positions molecule.numParticles molecule.positions frame.position
            frame.orientation with
        | .error e => .error e
        | .ok positions =>
          match molecule.getRadii with
          | .error e => .error e
          | .ok radii =>
            match npRepeat radii frame.len with
            | .error e => .error e
            | .ok radius => .ok {
                x := positions.map (fun p => p.1)
                y := positions.map (fun p => p.2.1)
                orientation := (List.replicate molecule.numParticles angle).flatten
                radius := radius.map (fun r => r * (98 / 100))
                colour := (List.replicate molecule.numParticles colour).flatten }

end Verif.Figures
