import Verif.Cache.Model
/-!
# Vocabulary for the properties of `WriteCache`
-/

namespace Verif.Cache

variable {ρ : Type}

/-- The items appended by a sequence of operations, in order. -/
def appended : List (Op ρ) → List ρ
  | [] => []
  | .append x :: ops => x :: appended ops
  | .flush :: ops => appended ops

/-- A cache as constructed by `WriteCache(filename, group, multiplier, to_append)`. -/
def fresh (g : String) (mult : Int) (toAppend : Bool) : WriteCache ρ :=
  ⟨true, some g, mult, toAppend, [], 8192, 0⟩

/-- The operations do not begin with a flush of nothing. -/
def StartsWithAppend (ops : List (Op ρ)) : Prop := ∃ x rest, ops = .append x :: rest

end Verif.Cache
