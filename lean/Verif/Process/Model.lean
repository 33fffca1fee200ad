import Verif.Cache.Model
/-!
# Model of `process_file`, `src/sdanalysis/read/_read.py:82-195`

The trackers (`Dynamics`, `Relaxations`) are parameters here, given by what `process_file` calls on
them; the readers are given by the pairs they yield and how they end.  Logging is left out.
-/

namespace Verif.Process

open Verif.Cache

/-- What `process_file` uses of frames (`Φ`), `Dynamics` (`D`), `Relaxations` (`R`), rows of
dynamics (`ρ`), rows of molecular relaxations (`σ`) and the temperature and pressure from the file
name (`ν`).  Methods that change the object return it along with the result, also on an exception. -/
structure Env (Φ D R ρ σ ν : Type) where
  /-- `frame.position.shape[0]`, line 129 -/
  numPos : Φ → Nat
  /-- `Dynamics.from_frame(frame, Trimer(), wave_number)`, line 138 -/
  newDyn : Φ → Except PyErr D
  /-- `Relaxations.from_frame(frame, Trimer(), wave_number)`, line 139 -/
  newRelax : Φ → Except PyErr R
  /-- `relax.set_mol_relax(mol_relaxations)` when `mol_relaxations` is given, lines 143-144 -/
  custom : Option (R → R × Option PyErr)
  /-- `dyn.compute_all(…)`, lines 147-152 -/
  computeAll : D → Φ → D × Except PyErr ρ
  /-- `relax.add(…)`, line 153 -/
  relaxAdd : R → Φ → R × Option PyErr
  /-- `r.summary()`, line 178: one row per molecule -/
  summary : R → List σ
  /-- temperature and pressure, lines 160-167 and 180-187, or the ValueError of `float` -/
  simVars : Except PyErr ν

/-- The rows of the two tables: with keyframe, (molecule,) values, temperature and pressure. -/
inductive Rec (ι ρ σ ν : Type) where
  | dyn (k : ι) (r : ρ) (v : ν)
  | mol (k : ι) (m : Nat) (r : σ) (v : ν)
  deriving DecidableEq

variable {ι Φ D R ρ σ ν : Type} [DecidableEq ι]

/-- The exceptions caught on line 154. -/
def handled : PyErr → Bool
  | .valueError => true
  | .runtimeError => true
  | _ => false

/-- What a caught or uncaught exception does in lines 146-156: on to the next index, or out. -/
def afterRaise (e : PyErr) : Except PyErr (Option (Rec ι ρ σ ν)) :=
  if handled e then .ok none else .error e

/-- Lines 146-167 for the trackers of one keyframe: what becomes of them, and the row to be
appended, if any. -/
def update (E : Env Φ D R ρ σ ν) (k : ι) (dr : D × R) (f : Φ) :
    (D × R) × Except PyErr (Option (Rec ι ρ σ ν)) :=
  match E.computeAll dr.1 f with
  | (d, .error e) => ((d, dr.2), afterRaise e)
  | (d, .ok row) =>
    match E.relaxAdd dr.2 f with
    | (r, some e) => ((d, r), afterRaise e)
    | (r, none) =>
      match E.simVars with
      | .error e => ((d, r), .error e)
      | .ok v => ((d, r), .ok (some (.dyn k row v)))

/-- Lines 135-167, one index of one frame.  New trackers are made whether they are needed or not. -/
def visit (E : Env Φ D R ρ σ ν) (kf : Dict ι (D × R)) (k : ι) (f : Φ) :
    Dict ι (D × R) × Except PyErr (Option (Rec ι ρ σ ν)) :=
  match E.newDyn f with
  | .error e => (kf, .error e)
  | .ok d0 =>
    match E.newRelax f with
    | .error e => (kf, .error e)
    | .ok r0 =>
      let kf1 := Dict.setdefault kf k (d0, r0)
      let dr := (Dict.get? kf1 k).getD (d0, r0)
      match (match E.custom with
        | none => (dr.2, none)
        | some set => set dr.2) with
      | (r1, some e) => (Dict.set kf1 k (dr.1, r1), .error e)
      | (r1, none) =>
        let res := update E k (dr.1, r1) f
        (Dict.set kf1 k res.1, res.2)

/-- The local variables `keyframes` and `dataframes`, with the output file. -/
structure St (ι D R ρ σ ν : Type) where
  kf : Dict ι (D × R)
  cache : WriteCache (Rec ι ρ σ ν)
  file : File (Rec ι ρ σ ν)

/-- Lines 134-168, the loop over the indexes of a frame. -/
def indexLoop (E : Env Φ D R ρ σ ν) (f : Φ) : List ι → St ι D R ρ σ ν →
    St ι D R ρ σ ν × Option PyErr
  | [], s => (s, none)
  | k :: ks, s =>
    match visit E s.kf k f with
    | (kf, .error e) => ({ s with kf := kf }, some e)
    | (kf, .ok none) => indexLoop E f ks { s with kf := kf }
    | (kf, .ok (some row)) =>
      match s.cache.append s.file row with
      | ((c, file), some e) => (⟨kf, c, file⟩, some e)
      | ((c, file), none) => indexLoop E f ks ⟨kf, c, file⟩

/-- Lines 128-168, the loop over the frames. -/
def frameLoop (E : Env Φ D R ρ σ ν) : List (List ι × Φ) → St ι D R ρ σ ν →
    St ι D R ρ σ ν × Option PyErr
  | [], s => (s, none)
  | p :: ps, s =>
    if E.numPos p.2 = 0 then frameLoop E ps s
    else match indexLoop E p.2 p.1 s with
      | (s', some e) => (s', some e)
      | (s', none) => frameLoop E ps s'

/-- The molecular relaxations of all keyframes, lines 177-189. -/
def molRows (E : Env Φ D R ρ σ ν) (kf : Dict ι (D × R)) (v : ν) : List (Rec ι ρ σ ν) :=
  kf.flatMap (fun p => (E.summary p.2.2).mapIdx (fun m r => .mol p.1 m r v))

/-- Lines 175-191, the end of a run with an output file: `pandas.concat` of nothing is a
ValueError. -/
def finishFile (E : Env Φ D R ρ σ ν) (s : St ι D R ρ σ ν) :
    File (Rec ι ρ σ ν) × Except PyErr (Option (List (Rec ι ρ σ ν))) :=
  match s.cache.flush s.file with
  | ((_, file), some e) => (file, .error e)
  | ((_, file), none) =>
    if s.kf.isEmpty then (file, .error .valueError)
    else match E.simVars with
      | .error e => (file, .error e)
      | .ok v => (toHdfFixed file "molecular_relaxations" (molRows E s.kf v), .ok none)

/-- Lines 193-195, the end of a run without output file. -/
def finishMemory (s : St ι D R ρ σ ν) :
    File (Rec ι ρ σ ν) × Except PyErr (Option (List (Rec ι ρ σ ν))) :=
  if s.cache.cache.length > 0 then (s.file, .ok (some s.cache.cache))
  else (s.file, .error .assertionError)

/-- `process_file`, lines 82-195: from the contents of the output file to the contents afterwards
and the returned rows or exception.  `iter` is what the reader chosen by the suffix yields (`none`
for another suffix, where `file_iterator` is unbound), `ending` the exception it ends with. -/
def processFile (E : Env Φ D R ρ σ ν) (iter : Option (List (List ι × Φ) × Option PyErr))
    (outfile : Bool) (file : File (Rec ι ρ σ ν)) :
    File (Rec ι ρ σ ν) × Except PyErr (Option (List (Rec ι ρ σ ν))) :=
  match iter with
  | none => (file, .error .unboundLocalError)
  | some (pairs, ending) =>
    match frameLoop E pairs
        ⟨[], ⟨outfile, some "dynamics", 1, false, [], 8192, 0⟩, file⟩ with
    | (s, some e) => (s.file, .error e)
    | (s, none) =>
      match ending with
      | some e => (s.file, .error e)
      | none => if outfile then finishFile E s else finishMemory s

end Verif.Process
