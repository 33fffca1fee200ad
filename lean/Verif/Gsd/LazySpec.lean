import Verif.Gsd.LazyModel
/-!
# Ending
-/

namespace Verif.Gsd

variable {α : Type}

/-- Something that is observed for more and more turns comes to an end: from some number of turns
on nothing changes any more, and it is not running. -/
def ComesToEnd (run : Nat → List (List Nat × GFrame α) × Ending) : Prop :=
  ∃ N out e, e ≠ .running ∧ ∀ n ≥ N, run n = (out, e)

/-- Something that is observed for more and more turns never does anything. -/
def NeverEnds (run : Nat → List (List Nat × GFrame α) × Ending) : Prop :=
  ∀ n, run n = ([], .running)

/-- A first frame can be read: all before it raise RuntimeError. -/
def Readable (raws : List (Raw α)) : Prop :=
  ∃ pre f post, raws = pre ++ .ok f :: post ∧ ∀ r ∈ pre, r = .error .runtimeError

end Verif.Gsd
