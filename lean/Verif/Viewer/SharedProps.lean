import Verif.Viewer.AlgorithmProps
/-!
# Property C89: what the last of several viewers offers
-/

namespace Verif.Viewer

variable {F : Type} (load : List Char → Except PyErr F)

/-- Loading two lists one after the other. -/
theorem loadModels_append (l' : List (List Char)) : ∀ (l : List (List Char)) (d : Dict (List Char) (Algorithm F)),
    (∀ m ∈ l, ∃ f, load m = .ok f) →
    loadModels load d (l ++ l') = loadModels load (loadModels load d l).1 l'
  | [], d, _ => rfl
  | m :: l, d, h => by
    obtain ⟨f, hf⟩ := h m (by simp)
    simp only [List.cons_append, loadModels, hf]
    exact loadModels_append l' l _ (fun m' hm' => h m' (by simp [hm']))

/-- Several viewers load all their models into one dictionary. -/
theorem viewers_flatten : ∀ (ls : List (List (List Char))) (d : Dict (List Char) (Algorithm F)),
    (∀ l ∈ ls, ∀ m ∈ l, ∃ f, load m = .ok f) →
    viewers load d (ls.map .list) = (loadModels load d ls.flatten).1
  | [], d, _ => rfl
  | l :: ls, d, h => by
    rw [List.map_cons, viewers, addModels, viewers_flatten ls _ (fun l' hl' => h l' (by simp [hl'])),
      List.flatten_cons, loadModels_append load _ l d (h l (by simp))]

/-- **C89, several viewers.**  The labels are those of the built-in algorithms and of the models of all viewers made
so far, and under each is the model of that name that was loaded last. -/
theorem C89_all (ls : List (List (List Char))) (h : ∀ l ∈ ls, ∀ m ∈ l, ∃ f, load m = .ok f) :
    (∀ x, x ∈ labels (viewers load (builtin F) (ls.map .list)) ↔
      x = "None".toList ∨ x = "Orient".toList ∨ x = "Num Neighs".toList ∨
        ∃ l ∈ ls, ∃ m ∈ l, modelName m = x) ∧
    ∀ pre m post f, ls.flatten = pre ++ m :: post → load m = .ok f →
      (∀ m' ∈ post, modelName m' ≠ modelName m) →
      Dict.get? (viewers load (builtin F) (ls.map .list)) (modelName m) = some (.model f) := by
  have h' : ∀ m ∈ ls.flatten, ∃ f, load m = .ok f := by
    intro m hm
    obtain ⟨l, hl, hm⟩ := List.mem_flatten.1 hm
    exact h l hl m hm
  obtain ⟨-, -, h3, h4, -⟩ := C89_first_partial load ls.flatten h'
  rw [viewers_flatten load ls _ h]
  refine ⟨?_, h4⟩
  intro x
  refine (h3 x).trans ?_
  simp only [List.mem_flatten]
  constructor
  · rintro (h | h | h | ⟨m, ⟨l, hl, hm⟩, h⟩)
    · exact Or.inl h
    · exact Or.inr (Or.inl h)
    · exact Or.inr (Or.inr (Or.inl h))
    · exact Or.inr (Or.inr (Or.inr ⟨l, hl, m, hm, h⟩))
  · rintro (h | h | h | ⟨l, hl, m, hm, h⟩)
    · exact Or.inl h
    · exact Or.inr (Or.inl h)
    · exact Or.inr (Or.inr (Or.inl h))
    · exact Or.inr (Or.inr (Or.inr ⟨m, ⟨l, hl, hm⟩, h⟩))

/-- **C89, exactly.**  The last viewer offers just the built-in algorithms and its own models iff every model given to
a viewer before has the name of one of these. -/
theorem C89_exactly (ls : List (List (List Char))) (own : List (List Char))
    (h : ∀ l ∈ ls ++ [own], ∀ m ∈ l, ∃ f, load m = .ok f) :
    (∀ x, x ∈ labels (viewers load (builtin F) ((ls ++ [own]).map .list)) ↔
      x = "None".toList ∨ x = "Orient".toList ∨ x = "Num Neighs".toList ∨ ∃ m ∈ own, modelName m = x) ↔
    ∀ l ∈ ls, ∀ m ∈ l, modelName m ∈ ["None".toList, "Orient".toList, "Num Neighs".toList] ∨
      ∃ m' ∈ own, modelName m' = modelName m := by
  have hall := (C89_all load (ls ++ [own]) h).1
  constructor
  · intro hx l hl m hm
    rcases (hx (modelName m)).1 ((hall _).2 (Or.inr (Or.inr (Or.inr ⟨l, by simp [hl], m, hm, rfl⟩)))) with
      h | h | h | h
    · exact Or.inl (by rw [h]; simp)
    · exact Or.inl (by rw [h]; simp)
    · exact Or.inl (by rw [h]; simp)
    · exact Or.inr h
  · intro hx x
    rw [hall]
    constructor
    · rintro (h | h | h | ⟨l, hl, m, hm, rfl⟩)
      · exact Or.inl h
      · exact Or.inr (Or.inl h)
      · exact Or.inr (Or.inr (Or.inl h))
      · rcases List.mem_append.1 hl with hl | hl
        · rcases hx l hl m hm with h | h
          · simp only [List.mem_cons, List.not_mem_nil, or_false] at h
            tauto
          · exact Or.inr (Or.inr (Or.inr h))
        · rw [List.mem_singleton] at hl
          subst hl
          exact Or.inr (Or.inr (Or.inr ⟨m, hm, rfl⟩))
    · rintro (h | h | h | ⟨m, hm, h⟩)
      · exact Or.inl h
      · exact Or.inr (Or.inl h)
      · exact Or.inr (Or.inr (Or.inl h))
      · exact Or.inr (Or.inr (Or.inr ⟨own, by simp, m, hm, h⟩))

/-- Two viewers, the second with a model of the same name and another one. -/
example : (∀ l ∈ [["a/knn.pkl".toList]] ++ [["b/knn.pkl".toList, "nn.pkl".toList]], ∀ m ∈ l,
      ∃ f, (Except.ok (α := List Char) (ε := PyErr)) m = .ok f) ∧
    ∀ l ∈ [["a/knn.pkl".toList]], ∀ m ∈ l, ∃ m' ∈ ["b/knn.pkl".toList, "nn.pkl".toList],
      modelName m' = modelName m :=
  ⟨fun _ _ m _ => ⟨m, rfl⟩, by decide⟩

end Verif.Viewer
