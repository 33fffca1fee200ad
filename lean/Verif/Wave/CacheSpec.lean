import Verif.Wave.CacheModel
/-!
# Vocabulary for C143
-/

namespace Verif.Wave

/-- Vectors of length `k` in `n` directions, evenly spaced from the x axis on. -/
def EvenlySpread (k : ℝ) (n : ℕ) (v : List (ℝ × ℝ)) : Prop :=
  v.length = n ∧ ∀ j : ℕ, j < n → v[j]? =
    some (Real.cos (2 * Real.pi * j / n) * k, Real.sin (2 * Real.pi * j / n) * k)

/-- None of the operations changes an array which, at that time, is the one kept for `(k, n)`. -/
def Spares (k : ℝ) (n : ℕ) : Lru → List Op → Prop
  | _, [] => True
  | s, .call k' r :: ops => Spares k n (s.step (.call k' r)) ops
  | s, .write a v :: ops => ((k, (n : ℝ)), a) ∉ s.entries ∧ Spares k n (s.step (.write a v)) ops

/-- The operation is a call. -/
def Op.IsCall : Op → Prop
  | .call _ _ => True
  | .write _ _ => False

end Verif.Wave
