import Verif.Figures.Props
/-!
# Exactly which orderings are shown in the colours: C68
-/

namespace Verif.Figures

open Verif.Motion
open Verif.Dynamics hiding Mol
open Verif.Frame (View)

variable {C : Type}

/-- **C68, exactly.**  When the two palettes have no colour in common, an order function that gives
numbers is shown in the colours (light for the molecules with zero, dark for the others) if and only if
the numbers are booleans, `int64` or `float64`, or all molecules are ordered. -/
theorem C68_exactly (conv : Nat → Nat → Nat → C) (hconv : ∀ h h', conv h 80 80 ≠ conv h' 100 60)
    {N : ℕ} (v : View) (ang : Fin N → ℝ) (ha : ∀ m, |ang m| ≤ Real.pi) (f : View → OrderArr)
    (native : Bool) (l : List (Bool × String)) (hf : f v = .nums native l) (hl : l.length = N) :
    (∃ c : Fin N → C, colours conv (some f) none false v (List.ofFn ang) =
        .ok (List.ofFn (fun m => .rgb (c m))) ∧
      ∀ (m : Fin N) (ordered : Bool) (s : String), l[m.val]? = some (ordered, s) →
        Shade conv (!ordered) (ang m) (c m)) ↔
    (native = true ∨ ∀ x ∈ l, x.1 = true) := by
  cases native with
  | true =>
    exact ⟨fun _ => Or.inl rfl, fun _ => C68_order_function_partial conv v ang ha f l hf hl⟩
  | false =>
    obtain ⟨dark, h3, h4⟩ := colourOrientation_ofFn conv ang ha false
    obtain ⟨light, h5, -⟩ := colourOrientation_ofFn conv ang ha true
    have hcol : colours conv (some f) none false v (List.ofFn ang) =
        .ok (List.ofFn (fun m => .rgb (dark m))) := by
      unfold colours
      rw [if_neg (by simp)]
      simp only [h3, maskOfFunction, hf, lighten, h5, maskedSet, Except.map, map_ofFn']
    constructor
    · rintro ⟨c, h1, h2⟩
      right
      rw [hcol] at h1
      have hc : ∀ m, dark m = c m := by
        intro m
        have := congrFun (List.ofFn_injective (Except.ok.inj h1)) m
        exact Paint.rgb.inj this
      rintro ⟨o, s⟩ hx
      obtain ⟨i, hi⟩ := List.getElem?_of_mem hx
      have hi' : i < N := hl ▸ (List.getElem?_eq_some_iff.1 hi).1
      cases o with
      | true => rfl
      | false =>
        exfalso
        obtain ⟨_, h, -, -, -, e1⟩ := h2 ⟨i, hi'⟩ false s hi
        obtain ⟨_, h', -, -, -, e2⟩ := h4 ⟨i, hi'⟩
        rw [← hc, e2] at e1
        simp only [Bool.not_false, if_true, Bool.false_eq_true, if_false] at e1
        exact hconv h h' e1.symm
    · rintro (h | h)
      · cases h
      · refine ⟨dark, hcol, fun m o s hm => ?_⟩
        have := h _ (List.mem_of_getElem? hm)
        simp only at this
        rw [this]
        exact h4 m

/-- The palettes of luminance 80 and 60 when colours are told apart by their luminance. -/
example : ∀ h h' : Nat, (fun _ _ l : Nat => l) h 80 80 ≠ (fun _ _ l : Nat => l) h' 100 60 := by
  intro h h'; simp

end Verif.Figures
