import Verif.Pipeline.SkipProps
/-!
# Property C102: exactly when a frame with bad orientations leaves no trace
-/

namespace Verif.Pipeline

open Verif.Motion Verif.Dynamics Quaternion

variable {N : ℕ}

/-- **C102, exactly.**  A frame with an orientation that is not normalised raises, and the tracker is after the next frame
what it would have been without it iff the skipped frame has the positions of the frame before, up to the
periodic images that the box takes away. -/
theorem C102_exactly (b : Box) (dT dR s s' s'' : Fin N → V3) (q q' q'' : Fin N → Quat)
    (h : ∀ m, normSq (q m) = 1) (h' : ∃ m, normSq (q' m) ≠ 1) (h'' : ∀ m, normSq (q'' m) = 1) :
    ∃ m₁ m₂ m₃, Tracked.add ⟨b, List.ofFn dT, List.ofFn dR, List.ofFn s, some (List.ofFn q)⟩
        (List.ofFn s') (some (List.ofFn q')) = (m₁, some .valueError) ∧
      m₁.add (List.ofFn s'') (some (List.ofFn q'')) = (m₂, none) ∧
      Tracked.add ⟨b, List.ofFn dT, List.ofFn dR, List.ofFn s, some (List.ofFn q)⟩
        (List.ofFn s'') (some (List.ofFn q'')) = (m₃, none) ∧
      (m₂ = m₃ ↔ ∀ m, b.wrap (s m - s' m) = 0) := by
  have e₂ := Motion.add_ofFn b (fun m => dT m - b.wrap (s m - s' m)) dR s s'' (some q) (some q'')
    (by intro p hp; cases hp; exact h) (by intro p hp; cases hp; exact h'')
  have e₃ := Motion.add_ofFn b dT dR s s'' (some q) (some q'')
    (by intro p hp; cases hp; exact h) (by intro p hp; cases hp; exact h'')
  refine ⟨_, _, _, add_unnormalised b dT dR s s' q q' h (by push Not; exact h'), e₂, e₃, ?_⟩
  constructor
  · intro he m
    have hT := congrArg Tracked.deltaT he
    have := congrFun (List.ofFn_injective hT) m
    have h0 : dT m - b.wrap (s m - s' m) = dT m := sub_left_injective this
    exact sub_eq_self.1 h0
  · intro hz
    simp only [hz, sub_zero]

/-- A frame with the same positions in the box of the example. -/
example : ∀ m : Fin 10, kC.box.wrap (kS 1 m - kS 1 m) = 0 := by
  intro m
  rw [kC_wrap 1 1 (by norm_num) m]
  by_cases hm : m = 0 <;> simp [kS, hm]

end Verif.Pipeline
