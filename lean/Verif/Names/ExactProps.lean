import Verif.Names.Props
/-!
# Exactly which space groups survive in a file name, C55
-/

namespace Verif.Names

open Verif.Text

/-- Where the crystal read from fields comes from. -/
theorem items_crystal (xs : List (List Char)) (v : Variables)
    (h : Variables.items Variables.empty xs = .ok v) (x : List Char) :
    v.crystal = some x → x ∈ xs ∧ Gives x .crystal x := by
  intro hx
  have hne : [] ∉ xs := by
    intro hm
    rw [items_error xs _ hm] at h
    cases h
  obtain ⟨v', h1, h2⟩ := items_get xs Variables.empty hne
  rw [h1] at h
  obtain rfl := Except.ok.inj h
  rcases (h2 .crystal x).1 hx with ⟨pre, w, post, e, hg, _⟩ | ⟨_, h0⟩
  · obtain ⟨rfl, hg'⟩ := hg
    exact ⟨by rw [e]; simp, rfl, hg'⟩
  · cases h0

/-- **C55, what is never read.**  Whatever the file is called, the crystal read from its name is not
empty and starts with none of `P`, `T` and `ID`. -/
theorem C55_never (s : List Char) (v : Variables) (h : fromFilename s = .ok v) (x : List Char)
    (hx : v.crystal = some x) :
    x ≠ [] ∧ ¬ ['P'] <+: x ∧ ¬ ['T'] <+: x ∧ ¬ "ID".toList <+: x := by
  unfold fromFilename at h
  simp only at h
  split at h
  · obtain rfl := Except.ok.inj h
    cases hx
  · exact (items_crystal _ v h x hx).2.2

example : ∃ v, fromFilename "Trimer-P1.00-T0.40-p2.gsd".toList = .ok v ∧ v.crystal = some "p2".toList :=
  ⟨_, rfl, by decide⟩

/-- **C55, the exact condition with a space group.**  A space group without separators comes back
from the written name iff it is not empty and starts with none of `P`, `T` and `ID`. -/
theorem C55_exactly (p : Params) (pre : Option (List Char)) (hpre : KnownPrefix pre)
    (hP : 0 ≤ p.pressure) (hT : 0 ≤ p.temperature) (sg : List Char)
    (hsg : p.spaceGroup = some sg) (hplain : Plain sg) :
    (∃ v, fromFilename (p.filename pre) = .ok v ∧ v.crystal = some sg) ↔ SpaceGroupName sg := by
  constructor
  · rintro ⟨v, h1, h2⟩
    exact ⟨hplain, C55_never _ v h1 sg h2⟩
  · intro h
    obtain ⟨_, _, _, _, _, _, _, _, h1, _⟩ := C55_round_trip_partial p pre hpre hP hT sg hsg h
    exact ⟨_, h1, rfl⟩

/-- **C55, the exact condition without a space group.**  The written name is read as one without a
crystal iff the molecule is the trimer and the name has neither inertia scale nor harmonic force. -/
theorem C55_no_group_exactly (p : Params) (pre : Option (List Char)) (hpre : KnownPrefix pre)
    (hP : 0 ≤ p.pressure) (hT : 0 ≤ p.temperature) (hsg : p.spaceGroup = none) :
    (∃ v, fromFilename (p.filename pre) = .ok v ∧ v.crystal = none) ↔
      p.molecule = .trimer ∧ p.momentInertiaScale = none ∧ p.harmonicForce = none := by
  constructor
  · rintro ⟨v, h1, h2⟩
    rw [fromFilename_written p pre hpre hP hT (by simp [hsg])] at h1
    have hne : [] ∉ p.molecule.str :: p.pieces := by
      intro hm
      rw [items_error _ _ hm] at h1
      cases h1
    obtain ⟨v', e1, e2⟩ := items_get _ Variables.empty hne
    rw [e1] at h1
    obtain rfl := Except.ok.inj h1
    -- no field is a crystal, else the last such field would be read
    have hno : ∀ w ∈ p.molecule.str :: p.pieces, ¬ Gives w .crystal w := by
      intro w hw hg
      have key : ∀ (xs : List (List Char)) (w : List Char), w ∈ xs → Gives w .crystal w →
          ∃ pre u post, xs = pre ++ u :: post ∧ Gives u .crystal u ∧
            ∀ t ∈ post, ∀ y, ¬ Gives t .crystal y := by
        intro xs
        induction xs with
        | nil => intro w h; simp at h
        | cons a xs ih =>
          intro w hw hg
          by_cases hx : ∃ u ∈ xs, Gives u .crystal u
          · obtain ⟨u, hu, hgu⟩ := hx
            obtain ⟨pre, u, post, e, h3, h4⟩ := ih u hu hgu
            exact ⟨a :: pre, u, post, by rw [e]; rfl, h3, h4⟩
          · have : w = a := by
              rcases List.mem_cons.1 hw with h | h
              · exact h
              · exact absurd ⟨w, h, hg⟩ hx
            subst this
            refine ⟨[], w, xs, rfl, hg, fun t ht y hy => hx ⟨t, ht, ?_⟩⟩
            exact ⟨rfl, hy.2⟩
      obtain ⟨pr, u, post, e, h3, h4⟩ := key _ w hw hg
      have := (e2 .crystal u).2 (Or.inl ⟨pr, u, post, e, h3, h4⟩)
      change v'.crystal = some u at this
      rw [h2] at this
      cases this
    refine ⟨?_, ?_, ?_⟩
    · have h3 := hno p.molecule.str (by simp)
      cases hm : p.molecule <;> rw [hm] at h3 <;>
        first | rfl | exact absurd ⟨rfl, by decide, by decide, by decide, by decide⟩ h3
    · cases hI : p.momentInertiaScale with
      | none => rfl
      | some x =>
        exfalso
        have hmem : ∃ w, w ∈ numPieces 'I' x := by
          unfold numPieces
          split <;> exact ⟨_, List.mem_cons_self⟩
        obtain ⟨w, hw⟩ := hmem
        refine hno w ?_ (numPieces_crystal 'I' (Or.inl rfl) x w hw).1
        rw [pieces_eq, hI]
        simp [optPieces, hw]
    · cases hK : p.harmonicForce with
      | none => rfl
      | some x =>
        exfalso
        have hmem : ∃ w, w ∈ numPieces 'K' x := by
          unfold numPieces
          split <;> exact ⟨_, List.mem_cons_self⟩
        obtain ⟨w, hw⟩ := hmem
        refine hno w ?_ (numPieces_crystal 'K' (Or.inr rfl) x w hw).1
        rw [pieces_eq, hK]
        simp [optPieces, hw]
  · rintro ⟨hm, hI, hK⟩
    obtain ⟨_, _, _, _, _, _, _, _, h1, _⟩ := C55_no_group_partial p pre hpre hP hT hsg hm hI hK
    exact ⟨_, h1, rfl⟩

/-- `Trimer-P13.50-T0.40-P2.gsd` does not give back `P2`, `…-p2.gsd` does. -/
example : ¬ (∃ v, fromFilename ({ exampleParams with spaceGroup := some "P2".toList }.filename none)
      = .ok v ∧ v.crystal = some "P2".toList) ∧
    ∃ v, fromFilename (exampleParams.filename none) = .ok v ∧ v.crystal = some "p2".toList := by
  constructor
  · rw [C55_exactly { exampleParams with spaceGroup := some "P2".toList } none (Or.inl rfl)
      (by norm_num [exampleParams]) (by norm_num [exampleParams]) _ rfl ⟨by decide, by decide⟩]
    exact fun h => h.2.2.1 (by decide)
  · rw [C55_exactly exampleParams none (Or.inl rfl) (by norm_num [exampleParams])
      (by norm_num [exampleParams]) _ rfl ⟨by decide, by decide⟩]
    exact ⟨⟨by decide, by decide⟩, by decide, by decide, by decide, by decide⟩

/-- `Disc-P13.50-T0.40.gsd` is read as having a crystal. -/
example : ¬ ∃ v, fromFilename (discParams.filename none) = .ok v ∧ v.crystal = none := by
  rw [C55_no_group_exactly discParams none (Or.inl rfl) (by norm_num [discParams])
    (by norm_num [discParams]) rfl]
  exact fun h => by cases h.1

end Verif.Names
