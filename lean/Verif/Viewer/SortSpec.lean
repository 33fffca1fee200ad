import Mathlib.Data.Rat.Defs
import Mathlib.Algebra.Order.Field.Rat
import Mathlib.Tactic.Linarith
import Verif.Viewer.Model
/-!
# Numbers written in decimal
-/

namespace Verif.Viewer

/-- The value of a decimal digit. -/
def digit (c : Char) : ℚ := ((c.toNat - 48 : Nat) : ℚ)

/-- Only the digits 0 to 9. -/
def Digits (s : Str) : Prop := ∀ c ∈ s, 48 ≤ c.toNat ∧ c.toNat ≤ 57

/-- The value of digits before the point. -/
def whole : Str → ℚ
  | [] => 0
  | c :: s => digit c * 10 ^ s.length + whole s

/-- The value of digits behind the point. -/
def fractional : Str → ℚ
  | [] => 0
  | c :: s => (digit c + fractional s) / 10

/-- The text is the number `q` in decimal, with `n` digits before the point, and maybe a point and
digits behind it. -/
def Decimal (s : Str) (q : ℚ) (n : Nat) : Prop :=
  ∃ i f, Digits i ∧ Digits f ∧ i.length = n ∧ q = whole i + fractional f ∧
    (s = i ∧ f = [] ∨ s = i ++ '.' :: f)

/-- No number stands behind a greater one. -/
def Increasing (l : List Str) : Prop :=
  ∀ (j k : Nat) (a b : Str) (p q : ℚ) (m n : Nat), j < k → l[j]? = some a → l[k]? = some b → Decimal a p m → Decimal b q n → p ≤ q

/-- No number stands behind a greater one with the same number of digits before the point. -/
def IncreasingInLength (l : List Str) : Prop :=
  ∀ (j k : Nat) (a b : Str) (p q : ℚ) (n : Nat), j < k → l[j]? = some a → l[k]? = some b → Decimal a p n → Decimal b q n → p ≤ q

end Verif.Viewer
