import Verif.Names.Props
/-!
# Exactly when the variables of a file name come from its fields: C81
-/

namespace Verif.Names

open Verif.Text

/-- **C81, exactly.**  A variable is that of the last field of its kind after the molecule name, and
unknown when there is none, if and only if the name of the molecule does not look like such a field or
there is one after it. -/
theorem C81_exactly (dir mol : List Char) (fields : List (List Char))
    (ext : List Char) (hmol : mol ≠ []) (hpre : mol ∉ prefixes) (hplain : Plain mol)
    (hfields : ∀ w ∈ fields, Plain w ∧ w ≠ []) (hext : Extension ext) (hlen : 2 ≤ fields.length) :
    ∃ v, fromFilename (namedPath dir (mol :: fields) ext) = .ok v ∧ ∀ k,
      ((∀ a, v.get k = some a ↔ ∃ pre w post, fields = pre ++ w :: post ∧ Gives w k a ∧
        ∀ u ∈ post, ∀ b, ¬ Gives u k b) ↔
      ((∀ a, ¬ Gives mol k a) ∨ ∃ w ∈ fields, ∃ a, Gives w k a)) := by
  unfold fromFilename
  rw [pieces_of_named dir mol fields ext hmol (by
    intro w hw
    rcases List.mem_cons.1 hw with rfl | hw
    · exact hplain
    · exact (hfields w hw).1) hext]
  simp only [dropPrefix, if_neg hpre]
  rw [if_neg (by simp only [List.length_cons]; omega)]
  obtain ⟨v, hv, hget⟩ := items_get (mol :: fields) Variables.empty (by
    intro h
    rcases List.mem_cons.1 h with h | h
    · exact hmol h.symm
    · exact (hfields _ h).2 rfl)
  refine ⟨v, hv, fun k => ⟨fun h => ?_, fun h a => ?_⟩⟩
  · by_contra hn
    rw [not_or] at hn
    obtain ⟨h1, h2⟩ := hn
    rw [not_forall] at h1
    obtain ⟨a, ha⟩ := h1
    rw [not_not] at ha
    have hva : v.get k = some a := (hget k a).2 (Or.inl ⟨[], mol, fields, rfl, ha,
      fun u hu b hb => h2 ⟨u, hu, b, hb⟩⟩)
    obtain ⟨pre, w, post, heq, hg, _⟩ := (h a).1 hva
    exact h2 ⟨w, by rw [heq]; simp, a, hg⟩
  · rw [hget k a]
    constructor
    · rintro (⟨pre, w, post, heq, hg, hpost⟩ | ⟨_, h0⟩)
      · cases pre with
        | nil =>
          simp only [List.nil_append, List.cons.injEq] at heq
          obtain ⟨rfl, rfl⟩ := heq
          rcases h with h | ⟨u, hu, b, hb⟩
          · exact absurd hg (h a)
          · exact absurd hb (hpost u hu b)
        | cons q pre =>
          simp only [List.cons_append, List.cons.injEq] at heq
          exact ⟨pre, w, post, heq.2, hg, hpost⟩
      · cases k <;> simp [Variables.get, Variables.empty] at h0
    · rintro ⟨pre, w, post, rfl, hg, hpost⟩
      exact Or.inl ⟨mol :: pre, w, post, rfl, hg, hpost⟩

/-- The trimer with pressure and crystal: right for the pressure, wrong for the temperature. -/
example : ∃ v, fromFilename (namedPath "run".toList ["Trimer".toList, "P1.00".toList, "p2".toList]
    "gsd".toList) = .ok v ∧ v.temperature = some "rimer".toList ∧ v.pressure = some "1.00".toList :=
  ⟨_, rfl, by decide, by decide⟩

end Verif.Names
