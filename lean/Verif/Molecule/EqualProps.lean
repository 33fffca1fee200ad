import Verif.Molecule.Props
/-!
# Exactly when molecules are equal, and when `==` is transitive: C66
-/

namespace Verif.Molecule

/-- A plain `Molecule`, beside which discs and spheres count as equal. -/
def Alike (a b : Mol) : Prop :=
  (a.cls = .molecule ∧ (b.cls = .molecule ∨ b.cls = .disc ∨ b.cls = .sphere)) ∨
  (b.cls = .molecule ∧ (a.cls = .molecule ∨ a.cls = .disc ∨ a.cls = .sphere))

/-- One of the two is a plain `Molecule`, the other a trimer or a dimer. -/
def Unlike (a b : Mol) : Prop :=
  (a.cls = .molecule ∧ (b.cls = .trimer ∨ b.cls = .dimer)) ∨
  (b.cls = .molecule ∧ (a.cls = .trimer ∨ a.cls = .dimer))

/-- **C66, exactly.**  For molecules without NaN: comparing raises (AttributeError) exactly for a plain
`Molecule` beside a trimer or dimer; equal are exactly those of the same class with the same parameters,
and a plain `Molecule` beside another one, a disc or a sphere. -/
theorem C66_exactly (a b : Mol) (ha : Constructed a) (hb : Constructed b) (hn : NoNaN a) :
    (pyEq a b = .error .attributeError ↔ Unlike a b) ∧
    ((∃ r, pyEq a b = .ok r) ↔ ¬ Unlike a b) ∧
    (pyEq a b = .ok true ↔ SameKind a b ∨ Alike a b) := by
  have hcls : ∀ c : Cls, c = .molecule ∨ c = .disc ∨ c = .sphere ∨ c = .trimer ∨ c = .dimer := by
    intro c; cases c <;> simp
  by_cases hpa : a.cls = .molecule
  · obtain ⟨h1, h2⟩ := C66_plain a b ha hpa
    by_cases hu : b.cls = .trimer ∨ b.cls = .dimer
    · have hU : Unlike a b := Or.inl ⟨hpa, hu⟩
      have hA : ¬ (SameKind a b ∨ Alike a b) := by
        rintro (⟨h, -⟩ | ⟨-, h⟩ | ⟨h, -⟩)
        · rw [hpa] at h; rw [← h] at hu; simp at hu
        · rcases hu with hu | hu <;> rw [hu] at h <;> simp at h
        · rw [h] at hu; simp at hu
      rw [h1 hu]
      simp [hU, hA]
    · have hd : b.cls = .molecule ∨ b.cls = .disc ∨ b.cls = .sphere := by
        rcases hcls b.cls with h | h | h | h | h
        · exact Or.inl h
        · exact Or.inr (Or.inl h)
        · exact Or.inr (Or.inr h)
        · exact absurd (Or.inl h) hu
        · exact absurd (Or.inr h) hu
      have hU : ¬ Unlike a b := by
        rintro (⟨-, h⟩ | ⟨-, h⟩)
        · exact hu h
        · rw [hpa] at h; simp at h
      have hA : Alike a b := Or.inl ⟨hpa, hd⟩
      rw [h2 hd]
      simp [hU, hA]
  · by_cases hpb : b.cls = .molecule
    · obtain ⟨h1, h2⟩ := C66_plain b a hb hpb
      rw [C66_symmetric a b]
      by_cases hu : a.cls = .trimer ∨ a.cls = .dimer
      · have hU : Unlike a b := Or.inr ⟨hpb, hu⟩
        have hA : ¬ (SameKind a b ∨ Alike a b) := by
          rintro (⟨h, -⟩ | ⟨h, -⟩ | ⟨-, h⟩)
          · exact hpa (h.trans hpb)
          · exact hpa h
          · rcases hu with hu | hu <;> rw [hu] at h <;> simp at h
        rw [h1 hu]
        simp [hU, hA]
      · have hd : a.cls = .molecule ∨ a.cls = .disc ∨ a.cls = .sphere := by
          rcases hcls a.cls with h | h | h | h | h
          · exact Or.inl h
          · exact Or.inr (Or.inl h)
          · exact Or.inr (Or.inr h)
          · exact absurd (Or.inl h) hu
          · exact absurd (Or.inr h) hu
        have hU : ¬ Unlike a b := by
          rintro (⟨h, -⟩ | ⟨-, h⟩)
          · exact hpa h
          · exact hu h
        have hA : Alike a b := Or.inr ⟨hpb, hd⟩
        rw [h2 hd]
        simp [hU, hA]
    · obtain ⟨r, hr, hiff⟩ := C66_equivalence_partial a b ha hb hpa hpb hn
      have hU : ¬ Unlike a b := by
        rintro (⟨h, -⟩ | ⟨h, -⟩)
        · exact hpa h
        · exact hpb h
      have hA : ¬ Alike a b := by
        rintro (⟨h, -⟩ | ⟨h, -⟩)
        · exact hpa h
        · exact hpb h
      rw [hr]
      simp [hU, hA, hiff]

example (p : List String) (x : List Motion.V3) (r : Dict String ℝ) :
    Constructed (molecule p x r) ∧ Constructed disc ∧ NoNaN (molecule p x r) ∧ Alike (molecule p x r) disc :=
  ⟨.molecule p x r, .disc, by simp [NoNaN, Attr.real, molecule, initMolecule], Or.inl ⟨rfl, Or.inr (Or.inl rfl)⟩⟩

/-- **C66, when `==` is transitive.**  For `a == b` and `b == c` (without NaN), `a == c` holds if and
only if `b` is not a plain `Molecule`, or one of `a` and `c` is one, or both are of the same kind. -/
theorem C66_transitive_exactly (a b c : Mol) (ha : Constructed a) (hb : Constructed b)
    (hc : Constructed c) (hna : NoNaN a) (hnb : NoNaN b)
    (hab : pyEq a b = .ok true) (hbc : pyEq b c = .ok true) :
    pyEq a c = .ok true ↔
      b.cls ≠ .molecule ∨ a.cls = .molecule ∨ c.cls = .molecule ∨ SameKind a c := by
  rw [(C66_exactly a b ha hb hna).2.2] at hab
  rw [(C66_exactly b c hb hc hnb).2.2] at hbc
  rw [(C66_exactly a c ha hc hna).2.2]
  constructor
  · rintro (h | ⟨h, -⟩ | ⟨h, -⟩)
    · exact Or.inr (Or.inr (Or.inr h))
    · exact Or.inr (Or.inl h)
    · exact Or.inr (Or.inr (Or.inl h))
  · have round : ∀ x y : Mol, SameKind x y ∨ Alike x y → x.cls = .molecule →
        y.cls = .molecule ∨ y.cls = .disc ∨ y.cls = .sphere := by
      rintro x y (⟨h, -⟩ | ⟨-, h⟩ | ⟨h, -⟩) hx
      · exact Or.inl (h ▸ hx)
      · exact h
      · exact Or.inl h
    have back : ∀ x y : Mol, SameKind x y ∨ Alike x y → SameKind y x ∨ Alike y x := by
      rintro x y (⟨h1, h2, h3, h4⟩ | h)
      · exact Or.inl ⟨h1.symm, h2.symm, h3.symm, h4.symm⟩
      · exact Or.inr (Or.symm h)
    have step : ∀ x y z : Mol, SameKind x y ∨ Alike x y → SameKind y z ∨ Alike y z →
        x.cls = .molecule → z.cls = .molecule ∨ z.cls = .disc ∨ z.cls = .sphere := by
      intro x y z hxy hyz hx
      rcases round x y hxy hx with h | h
      · exact round y z hyz h
      · rcases hyz with ⟨hk, -⟩ | ⟨hk, -⟩ | ⟨hk, -⟩
        · rw [hk] at h; exact Or.inr h
        · rw [hk] at h; simp at h
        · exact Or.inl hk
    rintro (h | h | h | h)
    · rcases hab with hab | ⟨h1, h2⟩ | ⟨h1, h2⟩
      · rcases hbc with hbc | ⟨h1, h2⟩ | ⟨h1, h2⟩
        · exact Or.inl ⟨hab.1.trans hbc.1, hab.2.1.trans hbc.2.1, hab.2.2.1.trans hbc.2.2.1,
            hab.2.2.2.trans hbc.2.2.2⟩
        · exact absurd h1 h
        · exact Or.inr (Or.inr ⟨h1, by rw [hab.1]; exact h2⟩)
      · exact Or.inr (Or.inl ⟨h1, step a b c (Or.inr (Or.inl ⟨h1, h2⟩)) hbc h1⟩)
      · exact absurd h1 h
    · exact Or.inr (Or.inl ⟨h, step a b c hab hbc h⟩)
    · exact Or.inr (Or.inr ⟨h, step c b a (back b c hbc) (back a b hab) h⟩)
    · exact Or.inl h

/-- A disc, a plain molecule and a sphere: the sphere is not equal to the disc. -/
example : ¬ pyEq disc sphere = .ok true := by
  rw [C66_transitive_exactly disc molecule sphere .disc (.molecule _ _ _) .sphere
    (by simp [NoNaN, disc, initMolecule, Attr.real])
    (by simp [NoNaN, molecule, initMolecule, Attr.real])
    (by simp [pyEq, eqMethod, disc, molecule, initMolecule, Cls.sub])
    (by simp [pyEq, eqMethod, sphere, molecule, initMolecule, Cls.sub])]
  simp [disc, sphere, molecule, initMolecule, SameKind]

end Verif.Molecule
