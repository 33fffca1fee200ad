import Verif.Viewer.AlgorithmLemmas
/-!
# Property C89: the classification algorithms offered by a viewer
-/

namespace Verif.Viewer

variable {F : Type} (load : List Char → Except PyErr F)

/-- C89, proved part.  Full statement: a viewer offers the three built-in algorithms and the models
it was given, each under its name.  Proved for the first viewer of the process, when the models
can be loaded: it does, a model given later replacing those before of the same name;
`C89_shared_refuted` gives the case of a second viewer. -/
theorem C89_first_partial (l : List (List Char)) (h : ∀ m ∈ l, ∃ f, load m = .ok f) :
    (addModels load (builtin F) (.list l)).2 = none ∧
    (labels (addModels load (builtin F) (.list l)).1).Nodup ∧
    (∀ x, x ∈ labels (addModels load (builtin F) (.list l)).1 ↔
      x = "None".toList ∨ x = "Orient".toList ∨ x = "Num Neighs".toList ∨
        ∃ m ∈ l, modelName m = x) ∧
    (∀ pre m post f, l = pre ++ m :: post → load m = .ok f →
      (∀ m' ∈ post, modelName m' ≠ modelName m) →
      Dict.get? (addModels load (builtin F) (.list l)).1 (modelName m) = some (.model f)) ∧
    (∀ x, (∀ m ∈ l, modelName m ≠ x) →
      Dict.get? (addModels load (builtin F) (.list l)).1 x = Dict.get? (builtin F) x) := by
  have hb : (labels (builtin F)).Nodup := by
    change ["None".toList, "Orient".toList, "Num Neighs".toList].Nodup
    decide
  obtain ⟨h1, h2, h3, h4, h5⟩ := loadModels_ok load l h (builtin F) hb
  refine ⟨h1, h2, ?_, h5, h4⟩
  intro x
  unfold addModels
  simp only
  rw [h3]
  have : x ∈ labels (builtin F) ↔ x = "None".toList ∨ x = "Orient".toList ∨ x = "Num Neighs".toList := by
    simp [labels, builtin]
  rw [this]
  tauto

/-- C89.  In the first viewer the three built-in algorithms are behind the first three buttons, unless
a model has their name. -/
theorem C89_builtin (l : List (List Char)) (h : ∀ m ∈ l, ∃ f, load m = .ok f)
    (h0 : ∀ m ∈ l, modelName m ≠ "None".toList) (h1 : ∀ m ∈ l, modelName m ≠ "Orient".toList)
    (h2 : ∀ m ∈ l, modelName m ≠ "Num Neighs".toList) :
    getOrderFunction (addModels load (builtin F) (.list l)).1 0 = .ok .none ∧
    getOrderFunction (addModels load (builtin F) (.list l)).1 1 = .ok .orient ∧
    getOrderFunction (addModels load (builtin F) (.list l)).1 2 = .ok .neighbours := by
  have hb : (labels (builtin F)).Nodup := by
    change ["None".toList, "Orient".toList, "Num Neighs".toList].Nodup
    decide
  obtain ⟨-, -, -, h4, -⟩ := loadModels_ok load l h (builtin F) hb
  obtain ⟨new, hn⟩ := loadModels_keys load l (builtin F)
  have hk : ∀ (k : Nat) (name : List Char) (a : Algorithm F), (labels (builtin F))[k]? = some name →
      (∀ m ∈ l, modelName m ≠ name) → Dict.get? (builtin F) name = some a →
      getOrderFunction (loadModels load (builtin F) l).1 k = .ok a := by
    intro k name a hk hne ha
    have hlt : k < (labels (builtin F)).length := (List.getElem?_eq_some_iff.1 hk).1
    have hk' : ((loadModels load (builtin F) l).1.map Prod.fst)[k]? = some name := by
      change (labels (loadModels load (builtin F) l).1)[k]? = some name
      rw [hn, List.getElem?_append_left hlt, hk]
    unfold getOrderFunction
    rw [hk']
    simp only [h4 name hne, ha]
  exact ⟨hk 0 _ _ rfl h0 rfl, hk 1 _ _ rfl h1 rfl, hk 2 _ _ rfl h2 rfl⟩

example : ∀ m ∈ ["a/knn.pkl".toList, "nn.pkl".toList], modelName m ≠ "None".toList := by decide

/-- C89.  Whatever viewers are made later, the algorithm of every button of a viewer is the one stored
under the label of the button. -/
theorem C89_button (d : Dict (List Char) (Algorithm F)) (ms : List Models) (k : Nat)
    (name : List Char) (hk : (labels d)[k]? = some name) :
    ∃ a, Dict.get? (viewers load d ms) name = some a ∧
      getOrderFunction (viewers load d ms) k = .ok a := by
  obtain ⟨new, hn⟩ := viewers_keys load ms d
  have hlt : k < (labels d).length := (List.getElem?_eq_some_iff.1 hk).1
  have hk' : (labels (viewers load d ms))[k]? = some name := by
    rw [hn, List.getElem?_append_left hlt, hk]
  obtain ⟨a, ha⟩ := get?_of_key (viewers load d ms) name (List.mem_of_getElem? hk')
  refine ⟨a, ha, ?_⟩
  unfold getOrderFunction
  change (match (labels (viewers load d ms))[k]? with
    | Option.none => Except.error PyErr.indexError
    | some name => match Dict.get? (viewers load d ms) name with
      | Option.none => Except.error PyErr.keyError
      | some a => Except.ok a) = _
  rw [hk']
  simp only [ha]

/-- C89.  A value for `models` that is no list or tuple is refused. -/
theorem C89_refused (d : Dict (List Char) (Algorithm F)) :
    addModels load d .notAList = (d, some .valueError) := rfl

/-- C89 fails for a second viewer: given no models, it offers those of the first. -/
theorem C89_shared_refuted :
    "knn".toList ∈ labels (viewers (F := List Char) .ok (builtin _)
      [.list ["models/knn.pkl".toList], .list []]) := by decide

/-- C89 fails for the first of two viewers with models of the same name: the second replaces the
model behind the button of the first. -/
theorem C89_replaced_refuted :
    getOrderFunction (viewers (F := List Char) .ok (builtin _) [.list ["a/knn.pkl".toList]]) 3 =
      .ok (.model "a/knn.pkl".toList) ∧
    getOrderFunction (viewers (F := List Char) .ok (builtin _) [.list ["a/knn.pkl".toList],
      .list ["b/knn.pkl".toList]]) 3 = .ok (.model "b/knn.pkl".toList) := ⟨by rfl, by rfl⟩

example : (labels (addModels (F := List Char) .ok (builtin _)
    (.list ["a/knn.pkl".toList, "nn.pkl".toList])).1) =
    ["None".toList, "Orient".toList, "Num Neighs".toList, "knn".toList, "nn".toList] := by rfl

example : ∀ m ∈ ["a/knn.pkl".toList, "nn.pkl".toList], ∃ f,
    (Except.ok (α := List Char) (ε := PyErr)) m = .ok f := fun m _ => ⟨m, rfl⟩

end Verif.Viewer
