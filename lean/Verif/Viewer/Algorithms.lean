import Verif.Names.Model
/-!
# Model of the classification algorithms of `TrimerFigure`

`src/sdanalysis/figures/interactive_config.py`, lines 61-65, 87-94, 255-263 and 354-357.  The
dictionary `order_functions` belongs to the class: all viewers of a process share it.
Simplification: a function is known by where it comes from; `load` gives the function
`create_ml_ordering` makes of a path, or the exception of `joblib.load`.
-/

namespace Verif.Viewer

open Verif.Names (stem pathName)

/-- The functions in `order_functions`; `F` is the type of loaded models. -/
inductive Algorithm (F : Type) where
  | none
  | orient
  | neighbours
  | model (f : F)
  deriving DecidableEq

/-- `TrimerFigure.order_functions`, lines 61-65. -/
def builtin (F : Type) : Dict (List Char) (Algorithm F) :=
  [("None".toList, .none), ("Orient".toList, .orient), ("Num Neighs".toList, .neighbours)]

/-- The argument `models` of the constructor. -/
inductive Models where
  | none
  | notAList
  | list (l : List (List Char))

variable {F : Type} (load : List Char → Except PyErr F)

/-- The loop of lines 92-94. -/
def loadModels : Dict (List Char) (Algorithm F) → List (List Char) →
    Dict (List Char) (Algorithm F) × Option PyErr
  | d, [] => (d, Option.none)
  | d, m :: ms =>
    match load m with
    | .error e => (d, some e)
    | .ok f => loadModels (Dict.set d (stem (pathName m)) (.model f)) ms

/-- Lines 87-94 of the constructor: the dictionary of the class afterwards, and the exception. -/
def addModels (d : Dict (List Char) (Algorithm F)) :
    Models → Dict (List Char) (Algorithm F) × Option PyErr
  | .none => (d, Option.none)
  | .notAList => (d, some .valueError)
  | .list l => loadModels load d l

/-- The labels of the buttons, line 259. -/
def labels (d : Dict (List Char) (Algorithm F)) : List (List Char) := d.map Prod.fst

/-- `get_order_function`, lines 354-357, when the button `k` is active. -/
def getOrderFunction (d : Dict (List Char) (Algorithm F)) (k : Nat) :
    Except PyErr (Algorithm F) :=
  match (d.map Prod.fst)[k]? with
  | Option.none => .error .indexError
  | some name =>
    match Dict.get? d name with
    | Option.none => .error .keyError
    | some a => .ok a

/-- The dictionary of the class after several viewers were made, one after the other; `make_document`
(lines 452-456) makes one for every page that is opened. -/
def viewers (d : Dict (List Char) (Algorithm F)) : List Models → Dict (List Char) (Algorithm F)
  | [] => d
  | m :: ms => viewers (addModels load d m).1 ms

end Verif.Viewer
