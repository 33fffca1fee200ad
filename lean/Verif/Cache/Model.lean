import Verif.Py
/-!
# Model of `WriteCache`, `src/sdanalysis/read/_read.py:31-79`

The output file is a dictionary from table name to the list of stored rows.  `pandas.to_hdf` is
assumed to act as documented there: see `toHdfTable` and `toHdfFixed`.
-/

namespace Verif.Cache

/-- An hdf5 file: tables by name. -/
abbrev File (ρ : Type) := Dict String (List ρ)

variable {ρ : Type}

/-- The rows of a table; none when absent. -/
def rows (f : File ρ) (g : String) : List ρ := (Dict.get? f g).getD []

/-- `df.to_hdf(file, group, format="table", append=…)` (used at _read.py:60).  Assumed of pandas: an
empty frame is not written at all in the table format (the old table stays), otherwise the rows are
added to the table or replace it.  Type conflicts with the stored table are ignored. -/
def toHdfTable (f : File ρ) (g : String) (df : List ρ) (append : Bool) : File ρ :=
  if df.isEmpty then f
  else if append then Dict.set f g (rows f g ++ df)
  else Dict.set f g df

/-- `df.to_hdf(file, group)` in the fixed format (used at _read.py:190): replaces the table. -/
def toHdfFixed (f : File ρ) (g : String) (df : List ρ) : File ρ := Dict.set f g df

/-- `WriteCache`, _read.py:31-40.  The file name matters only by being present or not. -/
structure WriteCache (ρ : Type) where
  hasFile : Bool
  group : Option String
  multiplier : Int
  toAppend : Bool
  cache : List ρ
  cacheDefault : Int
  emptied : Int

/-- Construction, _read.py:31-44.  The check of the group is in `__attr_post_init__`, a name attrs
does not know (it calls `__attrs_post_init__`), so nothing runs and no value is refused. -/
def WriteCache.new (hasFile : Bool) (group : Option String) (multiplier : Int) (toAppend : Bool) :
    Except PyErr (WriteCache ρ) :=
  .ok ⟨hasFile, group, multiplier, toAppend, [], 8192, 0⟩

namespace WriteCache

/-- `_cache_size`, _read.py:46-48. -/
def size (c : WriteCache ρ) : Int := c.multiplier * c.cacheDefault

/-- `__len__`, _read.py:74-76. -/
def len (c : WriteCache ρ) : Int := c.size * c.emptied + c.cache.length

/-- `flush` with `_flush_file`, _read.py:57-66, on the file of the cache. -/
def flush (c : WriteCache ρ) (f : File ρ) : (WriteCache ρ × File ρ) × Option PyErr :=
  if c.hasFile = false then ((c, f), some .assertionError)
  else match c.group with
    | none => ((c, f), some .assertionError)
    | some g => (({ c with toAppend := true, cache := [] }, toHdfTable f g c.cache c.toAppend), none)

/-- `append`, _read.py:50-55. -/
def append (c : WriteCache ρ) (f : File ρ) (item : ρ) : (WriteCache ρ × File ρ) × Option PyErr :=
  if !c.cache.isEmpty && decide ((c.cache.length : Int) = c.size) then
    match c.flush f with
    | (s, some e) => (s, some e)
    | ((c', f'), none) =>
      (({ c' with emptied := c'.emptied + 1, cache := c'.cache ++ [item] }, f'), none)
  else (({ c with cache := c.cache ++ [item] }, f), none)

end WriteCache

/-- The public operations. -/
inductive Op (ρ : Type) where
  | append (x : ρ)
  | flush

/-- One operation. -/
def Op.run (op : Op ρ) (s : WriteCache ρ × File ρ) : (WriteCache ρ × File ρ) × Option PyErr :=
  match op with
  | .append x => s.1.append s.2 x
  | .flush => s.1.flush s.2

/-- A sequence of operations, up to the first exception. -/
def runOps : List (Op ρ) → WriteCache ρ × File ρ → (WriteCache ρ × File ρ) × Option PyErr
  | [], s => (s, none)
  | op :: ops, s =>
    match op.run s with
    | (s', some e) => (s', some e)
    | (s', none) => runOps ops s'

end Verif.Cache
