import Verif.Names.Props
/-!
# Exactly when `temp_context` restores the parameters: C57
-/

namespace Verif.Names

/-- The attributes where the block is left: those after the arguments that could be set when entering
it raises, otherwise those at the end of the body. -/
def atExit (kwargs : List (String × Val)) (body : Stmt) (d : Attrs) : Attrs :=
  match setAll d kwargs with
  | (d1, some _) => d1
  | (d1, none) => (exec body d1).1

/-- **C57, exactly.**  A `with` block leaves every attribute as it was if and only if it ends without
an exception, or the attributes happen to have their old values where the exception was raised: what
an exception leaves behind is what was there when it was raised, whole. -/
theorem C57_exactly (d : Attrs) (hd : (d.map Prod.fst).Nodup) (kwargs : List (String × Val))
    (body : Stmt) :
    ((∀ k v, Dict.get? d k = some v → Dict.get? (exec (.context kwargs body) d).1 k = some v) ↔
      ((exec (.context kwargs body) d).2 = none ∨
        ∀ k v, Dict.get? d k = some v → Dict.get? (atExit kwargs body d) k = some v)) ∧
    ((exec (.context kwargs body) d).2 ≠ none →
      (exec (.context kwargs body) d).1 = atExit kwargs body d) := by
  have hexit : (exec (.context kwargs body) d).2 ≠ none →
      (exec (.context kwargs body) d).1 = atExit kwargs body d := by
    intro h
    simp only [exec, atExit] at h ⊢
    split at h
    · rename_i h1; rw [h1]
    · rename_i h1
      rw [h1]
      split at h
      · exact absurd rfl h
      · rename_i h2; simp [h2]
  refine ⟨⟨fun h => ?_, fun h => ?_⟩, hexit⟩
  · by_cases he : (exec (.context kwargs body) d).2 = none
    · exact Or.inl he
    · rw [hexit he] at h
      exact Or.inr h
  · by_cases he : (exec (.context kwargs body) d).2 = none
    · exact (C57_restores_partial d _ hd kwargs body (Prod.ext rfl he)).1
    · rcases h with h | h
      · exact absurd h he
      · rw [hexit he]; exact h

/-- A block that raises after the temperature has been changed. -/
example : ¬ ∀ k v, Dict.get? someAttrs k = some v →
    Dict.get? (exec (.context [("temperature", .num 1)] (.raise .valueError)) someAttrs).1 k = some v := by
  intro h
  have := h "temperature" (.num (2 / 5)) rfl
  revert this
  rw [(C57_exactly someAttrs (by decide) _ _).2 (by simp [exec, setAll, setAttr])]
  simp [atExit, exec, setAll, setAttr, someAttrs, Dict.get?, Dict.set]
  norm_num

end Verif.Names
