/-!
# Vocabulary for the properties of `StepSize.py`

Stated without reference to the model.
-/

namespace Verif.StepSize

/-- `d` is on the decade grid of `num_linear`: `d = i*10^k` for some `0 ≤ i ≤ num_linear`, and
beyond the previous decade when there is one. -/
def OnGrid (numLinear d : Int) : Prop :=
  ∃ k i : Nat, (i : Int) ≤ numLinear ∧ d = i * 10 ^ k ∧
    (k = 0 ∨ numLinear * 10 ^ (k - 1) < i * 10 ^ k)

/-- The steps that a keyframe starting at `start` asks for in a run of `total` steps. -/
def Wants (total numLinear start x : Int) : Prop :=
  x = total ∨ (start ≤ x ∧ x < total ∧ OnGrid numLinear (x - start))

/-- The step at which keyframe `i` is first announced in a run, given the produced steps with the
`get_index()` answer after each. -/
def firstStep (out : List (Int × List Nat)) (i : Nat) : Option Int :=
  (out.find? (fun p => p.2.contains i)).map Prod.fst

end Verif.StepSize
