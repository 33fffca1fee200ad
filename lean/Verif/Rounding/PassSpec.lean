import Mathlib.Order.Bounds.Basic
import Mathlib.Data.Real.Basic
/-!
# Vocabulary for the times at which molecules pass a distance
-/

namespace Verif.Rounding

/-- `x` is the first of the times `t 1, …, t n` at which the length is beyond `thr`, or 2^32 - 1 if that is
earlier or there is none. -/
def FirstTime (n : ℕ) (t : ℕ → ℤ) (len : ℕ → ℝ) (thr : ℝ) (x : ℤ) : Prop :=
  IsLeast {y | y = 2 ^ 32 - 1 ∨ ∃ i, 1 ≤ i ∧ i ≤ n ∧ thr < len i ∧ y = t i} x

/-- The last passage: there is a first frame `i` with a length beyond `cut` and `thr`, and `j ≤ i` is where the
length became larger than `thr` for the last time before: it is beyond `thr` at `j`, not below it from there to `i`,
and was below it between every earlier frame beyond `thr` and `j`.  `x` is the time of `j`, or 2^32 - 1 if there is
no such `i`. -/
def LastTime (n : ℕ) (t : ℕ → ℤ) (len : ℕ → ℝ) (thr cut : ℝ) (x : ℤ) : Prop :=
  ((∀ i, 1 ≤ i → i ≤ n → ¬ (thr < len i ∧ cut < len i)) ∧ x = 2 ^ 32 - 1) ∨
  ∃ i j, 1 ≤ j ∧ j ≤ i ∧ i ≤ n ∧ (thr < len i ∧ cut < len i) ∧
    (∀ k, 1 ≤ k → k < i → ¬ (thr < len k ∧ cut < len k)) ∧
    thr < len j ∧ (∀ k, j < k → k ≤ i → ¬ len k < thr) ∧
    (∀ k, 1 ≤ k → k < j → thr < len k → ∃ l, k < l ∧ l < j ∧ len l < thr) ∧ x = t j

/-- No length is within one part in 2^20 and `h` of the distance. -/
def Apart (n : ℕ) (len : ℕ → ℝ) (d h : ℝ) : Prop :=
  ∀ i, 1 ≤ i → i ≤ n → len i ≤ d * (1 - 1 / 2 ^ 20) - h ∨ d * (1 + 1 / 2 ^ 20) + h ≤ len i

/-- `x` is the first time for `thr` up to one part in 2^20 and `h` of the threshold: it is not before the first time
for the smaller threshold and not after that for the larger one, and it is the first time for `thr` itself if no
length is in between. -/
def FirstTimeUpTo (n : ℕ) (t : ℕ → ℤ) (len : ℕ → ℝ) (thr h : ℝ) (x : ℤ) : Prop :=
  (∀ a, FirstTime n t len (thr * (1 - 1 / 2 ^ 20) - h) a → a ≤ x) ∧
  (∀ b, FirstTime n t len (thr * (1 + 1 / 2 ^ 20) + h) b → x ≤ b) ∧
  (Apart n len thr h → FirstTime n t len thr x)

end Verif.Rounding
