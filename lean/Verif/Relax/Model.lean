import Mathlib.Algebra.Order.Field.Basic
import Verif.Py
/-!
# Model of the molecular relaxations, `src/sdanalysis/dynamics/relaxations.py`

Floats are `Option K` for an ordered field `K`: `none` is NaN and every comparison with it is false
(`np.errstate(invalid="ignore")`, relaxations.py:215, 245).  Times are integers.  Arrays are lists.
-/

namespace Verif.Relax

variable {K : Type} [Field K] [LinearOrder K]

/-- A Python float. -/
abbrev Fl (K : Type) := Option K

/-- `a > b` on floats. -/
def fgt (a b : Fl K) : Bool :=
  match a, b with
  | some x, some y => decide (y < x)
  | _, _ => false

/-- `a < b` on floats. -/
def flt (a b : Fl K) : Bool := fgt b a

/-- `RelaxationType`, relaxations.py:35-37. -/
inductive Kind where
  | rotation | translation
  deriving DecidableEq

/-- `_max_value`, relaxations.py:190, 198. -/
def maxValue : Int := 2 ^ 32 - 1

/-- `MolecularRelaxation`, relaxations.py:187-207. -/
structure First (K : Type) where
  threshold : Fl K
  kind : Kind
  status : List Int

/-- `MolecularRelaxation.__init__`, relaxations.py:193-207. -/
def First.new (n : Nat) (threshold : Fl K) (kind : Kind) : First K :=
  ⟨threshold, kind, List.replicate n maxValue⟩

/-- The update of one molecule, relaxations.py:216-218. -/
def firstStep (threshold : Fl K) (t : Int) (d : Fl K) (status : Int) : Int :=
  if fgt d threshold && decide (status > t) then t else status

/-- `MolecularRelaxation.add`, relaxations.py:209-218. -/
def First.add (r : First K) (t : Int) (dist : List (Fl K)) : Except PyErr (First K) :=
  if dist.length ≠ r.status.length then .error .runtimeError
  else .ok { r with status := List.zipWith (firstStep r.threshold t) dist r.status }

/-- `MolecularRelaxation.get_status`, relaxations.py:220-221. -/
def First.getStatus (r : First K) : List Int := r.status

/-- `LastMolecularRelaxation`, relaxations.py:224-236; `_state` and `_status` side by side. -/
structure Last (K : Type) where
  threshold : Fl K
  irreversibility : Fl K
  kind : Kind
  mols : List (Nat × Int)

/-- `LastMolecularRelaxation.__init__`, relaxations.py:227-236. -/
def Last.new (n : Nat) (threshold irreversibility : Fl K) (kind : Kind) : Last K :=
  ⟨threshold, irreversibility, kind, List.replicate n (0, maxValue)⟩

/-- The update of one molecule, relaxations.py:273-289: the three masked assignments in order. -/
def lastStep (threshold irr : Fl K) (t : Int) (d : Fl K) (m : Nat × Int) : Nat × Int :=
  let m1 := if fgt d threshold && decide (m.1 = 0) then (1, t) else m
  let m2 := if flt d threshold && decide (m1.1 = 1) then (0, m1.2) else m1
  if fgt d irr && decide (m2.1 = 1) then (2, m2.2) else m2

/-- `LastMolecularRelaxation.add`, relaxations.py:238-289. -/
def Last.add (r : Last K) (t : Int) (dist : List (Fl K)) : Except PyErr (Last K) :=
  if dist.length ≠ r.mols.length then .error .runtimeError
  else .ok { r with mols := List.zipWith (lastStep r.threshold r.irreversibility t) dist r.mols }

/-- `LastMolecularRelaxation.get_status`, relaxations.py:291-294. -/
def Last.getStatus (r : Last K) : List Int :=
  r.mols.map (fun m => if m.1 ≠ 2 then maxValue else m.2)

/-- The values of the `mol_relax` dictionary. -/
inductive MolRelax (K : Type) where
  | first (r : First K)
  | last (r : Last K)

namespace MolRelax

/-- `func.relaxation_type`. -/
def kind : MolRelax K → Kind
  | first r => r.kind
  | last r => r.kind

/-- `func.add`. -/
def add (m : MolRelax K) (t : Int) (dist : List (Fl K)) : Except PyErr (MolRelax K) :=
  match m with
  | first r => (r.add t dist).map first
  | last r => (r.add t dist).map last

/-- `func.get_status`. -/
def getStatus : MolRelax K → List Int
  | first r => r.getStatus
  | last r => r.getStatus

end MolRelax

/-- One entry of the argument of `set_mol_relax`.  A missing key and the value `None` are the same
for `name` and `threshold`.  Texts that `float()` refuses are `none` inside. -/
structure Def (K : Type) where
  name : Option String
  threshold : Option (Option (Fl K))
  lastPassage : Bool
  cutoff : Option (Option (Fl K))
  type : Option String

/-- `RelaxationType[name]`, relaxations.py:207; `none` is KeyError. -/
def kindOf : String → Option Kind
  | "rotation" => some .rotation
  | "translation" => some .translation
  | _ => none

/-- `create_mol_relaxations` as called by `set_mol_relax`, relaxations.py:308-335. -/
def createMolRelaxation (n : Nat) (threshold : Fl K) (lastPassage : Bool) (cutoff : Fl K)
    (type : String) : Except PyErr (MolRelax K) :=
  if flt threshold (some 0) then .error .valueError
  else if lastPassage then
    if flt cutoff (some 0) then .error .valueError
    else match kindOf type with
      | none => .error .keyError
      | some k => .ok (.last (Last.new n threshold cutoff k))
  else match kindOf type with
    | none => .error .keyError
    | some k => .ok (.first (First.new n threshold k))

/-- The body of the loop of `set_mol_relax` up to the creation, relaxations.py:112-130: the name
and the relaxation for one definition. -/
def makeRelax (n : Nat) (d : Def K) : Except PyErr (String × MolRelax K) :=
  match d.name with
  | none => .error .valueError
  | some name =>
    match d.threshold with
    | none => .error .valueError
    | some none => .error .valueError
    | some (some threshold) =>
      match d.cutoff.getD (some (threshold.map (3 * ·))) with
      | none => .error .valueError
      | some cutoff =>
        (createMolRelaxation n threshold d.lastPassage cutoff (d.type.getD "translation")).map
          (fun r => (name, r))

/-- The loop of `set_mol_relax`, relaxations.py:111-130, from the dictionary built so far: the
dictionary left in place, and the exception if any. -/
def setLoop (n : Nat) : List (Def K) → Dict String (MolRelax K) →
    Dict String (MolRelax K) × Option PyErr
  | [], acc => (acc, none)
  | d :: ds, acc =>
    match makeRelax n d with
    | .error e => (acc, some e)
    | .ok (name, r) => setLoop n ds (Dict.set acc name r)

/-- `set_mol_relax`, relaxations.py:109-130: the old dictionary is dropped first (line 110). -/
def setMolRelax (n : Nat) (_old : Dict String (MolRelax K)) (ds : List (Def K)) :
    Dict String (MolRelax K) × Option PyErr :=
  setLoop n ds []

/-- The default definitions, relaxations.py:64-81, for `distance = dist` and the angle `pi`. -/
def defaults (dist pi : K) : List (Def K) :=
  [ ⟨some "tau_D", some (some (some (3 * dist))), false, none, none⟩,
    ⟨some "tau_F", some (some (some dist)), false, none, none⟩,
    ⟨some "tau_L", some (some (some dist)), true, some (some (some (3 * dist))), none⟩,
    ⟨some "tau_T2", some (some (some (pi / 2))), false, none, some "rotation"⟩,
    ⟨some "tau_T3", some (some (some (pi / 3))), false, none, some "rotation"⟩,
    ⟨some "tau_T4", some (some (some (pi / 4))), false, none, some "rotation"⟩ ]

/-- The loop over the relaxations in `Relaxations.add`, relaxations.py:156-162, with the entries
already updated in front. -/
def addLoop (t : Int) (displacement rotation : List (Fl K)) :
    Dict String (MolRelax K) → Dict String (MolRelax K) × Option PyErr
  | [] => ([], none)
  | (name, r) :: rest =>
    match r.add t (if r.kind = .rotation then rotation else displacement) with
    | .error e => ((name, r) :: rest, some e)
    | .ok r' => ((name, r') :: (addLoop t displacement rotation rest).1,
        (addLoop t displacement rotation rest).2)

/-- `Relaxations.summary`, relaxations.py:181-184: one column per relaxation. -/
def summary (d : Dict String (MolRelax K)) : Dict String (List Int) :=
  d.map (fun p => (p.1, p.2.getStatus))

end Verif.Relax
