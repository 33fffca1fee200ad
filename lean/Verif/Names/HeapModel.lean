import Verif.Names.ParamModel
/-!
# Several `SimulationParams` objects and the molecules they refer to, `src/sdanalysis/params.py:28-129`

The attribute `molecule` holds a reference, and the default of params.py:36 is one object, made when the
class is defined.
-/

namespace Verif.Names

/-- The memory: the attributes of the molecules and of the parameters, by their places.  The molecule at place
0 is the default `Trimer()` of params.py:36. -/
structure Mem where
  mols : List Attrs
  objs : List Attrs

/-- What a program does with the objects; parameters are named by their places. -/
inductive HStmt where
  | skip
  | seq (a b : HStmt)
  /-- `p = SimulationParams(**kwargs)` -/
  | construct (kwargs : List (String × Val))
  /-- `p.key = value` -/
  | assign (i : Nat) (key : String) (value : Val)
  /-- `p.molecule = Molecule(…)`, a new one with the given attributes -/
  | newMol (i : Nat) (attrs : Attrs)
  /-- `p.molecule.key = value` -/
  | change (i : Nat) (key : String) (value : Val)
  | raise (e : PyErr)
  /-- `try: a except: b` -/
  | attempt (a b : HStmt)
  /-- `with p.temp_context(**kwargs): body` -/
  | context (i : Nat) (kwargs : List (String × Val)) (body : HStmt)

/-- The molecule of the parameters at place `i`: its place. -/
def Mem.molOf (m : Mem) (i : Nat) : Option Nat :=
  match (m.objs[i]?).bind (fun d => Dict.get? d "molecule") with
  | some (.obj a) => some a
  | _ => none

/-- The effect of a program and the exception that leaves it.  A name without object is a NameError (written
as UnboundLocalError, a kind of it); an attribute of something that is not a molecule cannot be set
(AttributeError).  The copy of `__dict__` in `temp_context` (params.py:121-125) copies references. -/
def hexec : HStmt → Mem → Mem × Option PyErr
  | .skip, m => (m, none)
  | .seq a b, m =>
    match hexec a m with
    | (m', none) => hexec b m'
    | (m', some e) => (m', some e)
  | .construct kwargs, m =>
    match construct (.obj 0) kwargs with
    | .ok d => ({ m with objs := m.objs ++ [d] }, none)
    | .error e => (m, some e)
  | .assign i k v, m =>
    match m.objs[i]? with
    | none => (m, some .unboundLocalError)
    | some d => ({ m with objs := m.objs.set i (setAttr d k v).1 }, (setAttr d k v).2)
  | .newMol i attrs, m =>
    match m.objs[i]? with
    | none => (m, some .unboundLocalError)
    | some d => ({ mols := m.mols ++ [attrs],
                   objs := m.objs.set i (setAttr d "molecule" (.obj m.mols.length)).1 }, none)
  | .change i k v, m =>
    match m.molOf i with
    | none => (m, some .attributeError)
    | some a =>
      match m.mols[a]? with
      | none => (m, some .attributeError)
      | some d => ({ m with mols := m.mols.set a (Dict.set d k v) }, none)
  | .raise e, m => (m, some e)
  | .attempt a b, m =>
    match hexec a m with
    | (m', none) => (m', none)
    | (m', some _) => hexec b m'
  | .context i kwargs body, m =>
    match m.objs[i]? with
    | none => (m, some .unboundLocalError)
    | some d =>
      match setAll d kwargs with
      | (d1, some e) => ({ m with objs := m.objs.set i d1 }, some e)
      | (d1, none) =>
        match hexec body { m with objs := m.objs.set i d1 } with
        | (m2, some e) => (m2, some e)
        | (m2, none) => ({ m2 with objs := m2.objs.modify i (fun d2 => update d2 d) }, none)

end Verif.Names
