import Mathlib.Order.Bounds.Basic
import Verif.Relax.Model
/-!
# Vocabulary for the properties of the molecular relaxations
-/

namespace Verif.Relax

variable {K : Type} [LinearOrder K]

/-- Both are numbers and the first is larger. -/
def Exceeds (d thr : Option K) : Prop := ∃ x y, d = some x ∧ thr = some y ∧ y < x

/-- A history of one molecule: times with the distance then. -/
abbrev Hist (K : Type) := List (Int × Option K)

/-- The distances of molecule `m` in a history of arrays. -/
def ofMol (m : Nat) (hist : List (Int × List (Option K))) : Hist K :=
  hist.map (fun p => (p.1, p.2.getD m none))

/-- Position `i` is the first at which the distance is beyond both the threshold and the cutoff. -/
def FirstIrreversible (thr cut : Option K) (h : Hist K) (i : Nat) : Prop :=
  (∃ q, h[i]? = some q ∧ Exceeds q.2 thr ∧ Exceeds q.2 cut) ∧
  ∀ k < i, ∀ q, h[k]? = some q → ¬ (Exceeds q.2 thr ∧ Exceeds q.2 cut)

/-- At position `j` the molecule most recently left the threshold distance, as seen from position
`i`: it is beyond the threshold at `j`, not within it again up to `i`, and every earlier excursion
had come back within the threshold before `j`. -/
def LeftAt (thr : Option K) (h : Hist K) (i j : Nat) : Prop :=
  j ≤ i ∧ (∃ q, h[j]? = some q ∧ Exceeds q.2 thr) ∧
  (∀ k q, j < k → k ≤ i → h[k]? = some q → ¬ Exceeds thr q.2) ∧
  ∀ k q, k < j → h[k]? = some q → Exceeds q.2 thr →
    ∃ l q', k < l ∧ l < j ∧ h[l]? = some q' ∧ Exceeds thr q'.2

/-- Add all frames of a history to a first-passage relaxation. -/
def First.run (r : First K) : List (Int × List (Fl K)) → Except PyErr (First K)
  | [] => .ok r
  | p :: hist => match r.add p.1 p.2 with
    | .error e => .error e
    | .ok r' => First.run r' hist

/-- Add all frames of a history to a last-passage relaxation. -/
def Last.run (r : Last K) : List (Int × List (Fl K)) → Except PyErr (Last K)
  | [] => .ok r
  | p :: hist => match r.add p.1 p.2 with
    | .error e => .error e
    | .ok r' => Last.run r' hist

/-- Add all frames of a history to a relaxation of either kind. -/
def MolRelax.run (r : MolRelax K) : List (Int × List (Fl K)) → Except PyErr (MolRelax K)
  | [] => .ok r
  | p :: hist => match r.add p.1 p.2 with
    | .error e => .error e
    | .ok r' => MolRelax.run r' hist

/-- Add all frames (time, displacements, rotations) to the relaxations of an object; stops at the
first exception. -/
def runAll (d : Dict String (MolRelax K)) : List (Int × List (Fl K) × List (Fl K)) →
    Dict String (MolRelax K) × Option PyErr
  | [] => (d, none)
  | f :: frames => match addLoop f.1 f.2.1 f.2.2 d with
    | (d', some e) => (d', some e)
    | (d', none) => runAll d' frames

/-- The part of the frames a kind of relaxation is about. -/
def sel (k : Kind) (frames : List (Int × List (Fl K) × List (Fl K))) : List (Int × List (Fl K)) :=
  frames.map (fun f => (f.1, if k = .rotation then f.2.2 else f.2.1))

/-- The value for molecule `m` in the column `name` of the summary. -/
def cell (d : Dict String (MolRelax K)) (name : String) (m : Nat) : Option Int :=
  (Dict.get? (summary d) name).bind (·[m]?)

section define
variable {K : Type} [Field K] [LinearOrder K]

/-- A number (or NaN) which is not negative. -/
def NotNeg (x : Option K) : Prop := ∀ y, x = some y → 0 ≤ y

/-- A definition that should be accepted. -/
def Valid (d : Def K) : Prop :=
  (∃ name, d.name = some name) ∧
  (∃ thr, d.threshold = some (some thr) ∧ NotNeg thr) ∧
  (∀ t, d.type = some t → t = "rotation" ∨ t = "translation") ∧
  (∀ c, d.cutoff = some c → ∃ x, c = some x ∧ (d.lastPassage = true → NotNeg x))

/-- `r` is the relaxation described by `d`, as if no frame had been added: everything at
`2**32-1`.  The type is translation unless given, the cutoff three thresholds. -/
def Fresh (n : Nat) (d : Def K) (r : MolRelax K) : Prop :=
  ∃ thr k, d.threshold = some (some thr) ∧
    ((d.type = some "rotation" ∧ k = Kind.rotation) ∨
      ((d.type = none ∨ d.type = some "translation") ∧ k = Kind.translation)) ∧
    ((d.lastPassage = false ∧ r = .first ⟨thr, k, List.replicate n (2 ^ 32 - 1)⟩) ∨
     (d.lastPassage = true ∧ ∃ c, ((d.cutoff = none ∧ c = thr.map (3 * ·)) ∨
        d.cutoff = some (some c)) ∧ r = .last ⟨thr, c, k, List.replicate n (0, 2 ^ 32 - 1)⟩))

/-- `d` is the last definition of `name` in the list, and `r` its fresh relaxation. -/
def LastDef (n : Nat) (ds : List (Def K)) (name : String) (r : MolRelax K) : Prop :=
  ∃ pre d post, ds = pre ++ d :: post ∧ d.name = some name ∧ Fresh n d r ∧
    ∀ d' ∈ post, d'.name ≠ some name

end define

end Verif.Relax
