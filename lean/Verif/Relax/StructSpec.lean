import Mathlib.Algebra.BigOperators.Group.Finset.Basic
import Mathlib.Algebra.Order.Field.Rat
import Verif.Relax.Spec
import Verif.Relax.StructModel
/-!
# Vocabulary for the relaxations averaged over particles
-/

namespace Verif.Relax

/-- Add all frames of a history. -/
def Struct.run {K : Type} [Field K] [LinearOrder K] (r : Struct K) :
    List (Int × List (Fl K)) → Except PyErr (Struct K)
  | [] => .ok r
  | p :: hist => match r.add p.1 p.2 with
    | .error e => .error e
    | .ok r' => Struct.run r' hist

/-- The first time at which the distance is beyond the threshold, `2**32 - 1` if it never is. -/
def FirstTime {K : Type} [LinearOrder K] (thr : Option K) (h : Hist K) (s : ℤ) : Prop :=
  IsLeast {x | x = 2 ^ 32 - 1 ∨ ∃ q ∈ h, Exceeds q.2 thr ∧ x = q.1} s

/-- `l` holds, for each of `n` molecules, the average of the first times of its `p` particles, where
`place m j` is the position of particle `j` of molecule `m` in the arrays of distances. -/
def ParticleAverages {K : Type} [LinearOrder K] (n p : ℕ) (place : ℕ → ℕ → ℕ) (thr : Option K)
    (hist : List (Int × List (Option K))) (l : List ℚ) : Prop :=
  l.length = n ∧ ∀ m < n, ∃ s : ℕ → ℤ, (∀ j < p, FirstTime thr (ofMol (place m j) hist) (s j)) ∧
    l[m]? = some ((∑ j ∈ Finset.range p, (s j : ℚ)) / p)

end Verif.Relax
