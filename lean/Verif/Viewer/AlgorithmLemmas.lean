import Verif.Viewer.Algorithms
/-!
# Lemmas on the classification algorithms offered by a viewer
-/

namespace Verif.Viewer

open Verif.Names (stem pathName)

variable {F : Type} (load : List Char → Except PyErr F)

/-- The name under which a model is offered. -/
def modelName (m : List Char) : List Char := stem (pathName m)

theorem loadModels_keys (l : List (List Char)) : ∀ d : Dict (List Char) (Algorithm F),
    ∃ new, labels (loadModels load d l).1 = labels d ++ new := by
  induction l with
  | nil => exact fun d => ⟨[], by simp [loadModels]⟩
  | cons m ms ih =>
    intro d
    unfold loadModels
    cases load m with
    | error e => exact ⟨[], by simp⟩
    | ok f =>
      obtain ⟨new, hn⟩ := ih (Dict.set d (stem (pathName m)) (.model f))
      simp only
      rw [hn]
      unfold labels
      rw [Dict.keys_set]
      split
      · exact ⟨new, rfl⟩
      · exact ⟨[stem (pathName m)] ++ new, by rw [List.append_assoc]⟩

theorem addModels_keys (m : Models) (d : Dict (List Char) (Algorithm F)) :
    ∃ new, labels (addModels load d m).1 = labels d ++ new := by
  cases m with
  | none => exact ⟨[], by simp [addModels]⟩
  | notAList => exact ⟨[], by simp [addModels]⟩
  | list l => exact loadModels_keys load l d

theorem viewers_keys (ms : List Models) : ∀ d : Dict (List Char) (Algorithm F),
    ∃ new, labels (viewers load d ms) = labels d ++ new := by
  induction ms with
  | nil => exact fun d => ⟨[], by simp [viewers]⟩
  | cons m ms ih =>
    intro d
    obtain ⟨a, ha⟩ := addModels_keys load m d
    obtain ⟨b, hb⟩ := ih (addModels load d m).1
    exact ⟨a ++ b, by rw [viewers, hb, ha, List.append_assoc]⟩

theorem get?_of_key {ν : Type} (d : Dict (List Char) ν) (k : List Char) (h : k ∈ d.map Prod.fst) :
    ∃ v, Dict.get? d k = some v := by
  induction d with
  | nil => simp at h
  | cons p d ih =>
    obtain ⟨a, b⟩ := p
    simp only [Dict.get?]
    by_cases e : a = k
    · exact ⟨b, by simp [e]⟩
    · rw [if_neg e]
      simp only [List.map_cons, List.mem_cons] at h
      exact ih (h.resolve_left (fun h => e h.symm))

theorem loadModels_ok (l : List (List Char)) (h : ∀ m ∈ l, ∃ f, load m = .ok f) :
    ∀ d : Dict (List Char) (Algorithm F), (labels d).Nodup →
    (loadModels load d l).2 = none ∧ (labels (loadModels load d l).1).Nodup ∧
    (∀ x, x ∈ labels (loadModels load d l).1 ↔ x ∈ labels d ∨ ∃ m ∈ l, modelName m = x) ∧
    (∀ x, (∀ m ∈ l, modelName m ≠ x) → Dict.get? (loadModels load d l).1 x = Dict.get? d x) ∧
    (∀ pre m post f, l = pre ++ m :: post → load m = .ok f →
      (∀ m' ∈ post, modelName m' ≠ modelName m) →
      Dict.get? (loadModels load d l).1 (modelName m) = some (.model f)) := by
  induction l with
  | nil =>
    intro d hd
    refine ⟨rfl, hd, fun x => by simp [loadModels], fun _ _ => rfl, ?_⟩
    intro pre m post f h
    simp at h
  | cons a l ih =>
    intro d hd
    obtain ⟨g, hg⟩ := h a (by simp)
    have hd' : (labels (Dict.set d (stem (pathName a)) (Algorithm.model g))).Nodup :=
      Dict.nodup_set _ _ _ hd
    obtain ⟨h1, h2, h3, h4, h5⟩ := ih (fun m hm => h m (by simp [hm])) _ hd'
    unfold loadModels
    rw [hg]
    simp only
    refine ⟨h1, h2, ?_, ?_, ?_⟩
    · intro x
      rw [h3]
      unfold labels
      rw [Dict.keys_set]
      constructor
      · rintro (h | ⟨m, hm, rfl⟩)
        · split at h
          · exact Or.inl h
          · rw [List.mem_append, List.mem_singleton] at h
            exact h.imp id (fun h => ⟨a, by simp, h.symm⟩)
        · exact Or.inr ⟨m, by simp [hm], rfl⟩
      · rintro (h | ⟨m, hm, rfl⟩)
        · left
          split
          · exact h
          · exact List.mem_append.2 (Or.inl h)
        · rw [List.mem_cons] at hm
          rcases hm with rfl | hm
          · left
            split
            · assumption
            · exact List.mem_append.2 (Or.inr (by simp [modelName]))
          · exact Or.inr ⟨m, hm, rfl⟩
    · intro x hx
      rw [h4 x (fun m hm => hx m (by simp [hm])), Dict.get?_set]
      have := hx a (by simp)
      rw [if_neg]
      intro e
      exact this (by rw [modelName]; exact e)
    · intro pre m post f hl hm hpost
      cases pre with
      | nil =>
        simp only [List.nil_append, List.cons.injEq] at hl
        obtain ⟨rfl, rfl⟩ := hl
        rw [hg] at hm
        cases hm
        rw [h4 _ hpost, Dict.get?_set]
        simp [modelName]
      | cons b pre =>
        simp only [List.cons_append, List.cons.injEq] at hl
        exact h5 pre m post f hl.2 hm hpost

end Verif.Viewer
