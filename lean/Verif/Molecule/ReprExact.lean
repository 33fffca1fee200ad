import Verif.Molecule.ReprProps
/-!
# Property C177: exactly which molecules their `repr` makes again
-/

namespace Verif.Molecule

/-- **C177, exactly.**  Evaluating the `repr` makes an equal molecule iff the molecule is a trimer without NaN among
its numbers. -/
theorem C177_exactly (F : ℝ → Prop) (sh : Shown) (rd : Reader) (hf : FaithfulNumbers F sh rd) (m : Making)
    (hm : ∀ r d a s, m = .trimer r d a s → ∀ x ∈ [r, d, a, s], x.Plain F ∨ x = .nan) :
    RoundTrip sh rd m ↔ ∃ r d a s, m = .trimer r d a s ∧ Arg.nan ∉ [r, d, a, s] := by
  constructor
  · intro h
    by_cases ht : ∃ r d a s, m = .trimer r d a s
    · obtain ⟨r, d, a, s, rfl⟩ := ht
      refine ⟨r, d, a, s, rfl, fun hn => ?_⟩
      obtain ⟨m', x, y, he, -⟩ := h
      rw [C177_nan_refuted F sh rd hf r d a s (by
        simp only [List.mem_cons, List.not_mem_nil, or_false] at hn
        rcases hn with h | h | h | h <;> simp [h])] at he
      cases he
    · exact absurd h (C177_others_refuted sh rd m (fun r d a s e => ht ⟨r, d, a, s, e⟩)).1
  · rintro ⟨r, d, a, s, rfl, hn⟩
    have key : ∀ x ∈ [r, d, a, s], x.Plain F := by
      intro x hx
      rcases hm r d a s rfl x hx with h | h
      · exact h
      · subst h
        exact absurd hx hn
    exact (C177_trimer_partial F sh rd hf r d a s (key r (by simp)) (key d (by simp)) (key a (by simp))
      (key s (by simp))).2

/-- A trimer with a NaN, and one without. -/
example : ¬ RoundTrip strokes strokeReader (.trimer (.float 1) .nan (.int 120) (.int 1)) ∧
    RoundTrip strokes strokeReader (.trimer (.float 1) (.float 2) (.int 120) (.int 1)) := by
  constructor
  · rw [C177_exactly twoFloats strokes strokeReader strokes_faithful]
    · rintro ⟨r, d, a, s, h, hn⟩
      cases h
      simp at hn
    · intro r d a s h x hx
      cases h
      simp only [List.mem_cons, List.not_mem_nil, or_false] at hx
      rcases hx with rfl | rfl | rfl | rfl
      · exact Or.inl (Or.inl rfl)
      · exact Or.inr rfl
      · exact Or.inl trivial
      · exact Or.inl trivial
  · rw [C177_exactly twoFloats strokes strokeReader strokes_faithful]
    · exact ⟨_, _, _, _, rfl, by simp⟩
    · intro r d a s h x hx
      cases h
      simp only [List.mem_cons, List.not_mem_nil, or_false] at hx
      rcases hx with rfl | rfl | rfl | rfl
      · exact Or.inl (Or.inl rfl)
      · exact Or.inl (Or.inr rfl)
      · exact Or.inl trivial
      · exact Or.inl trivial

end Verif.Molecule
