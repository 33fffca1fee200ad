import Verif.Molecule.ReprProps
/-!
# Property C177: the name in the text is that of the class
-/

namespace Verif.Molecule

/-- **C177, names.**  The name before the bracket in the `repr` of a molecule is its `str`, and names its class. -/
theorem C177_named (sh : Shown) (m : Making) {a : Mol} (h : m.mol = .ok a) :
    (m.repr sh).name = a.str.toList ∧ classNamed (m.repr sh).name = some a.cls := by
  cases m with
  | molecule d p pos r rigid s =>
    obtain rfl := Except.ok.inj h
    exact ⟨rfl, by simp [Making.repr, attrsRepr, classNamed, molecule, initMolecule]⟩
  | disc =>
    obtain rfl := Except.ok.inj h
    exact ⟨rfl, by simp [Making.repr, attrsRepr, classNamed, disc, initMolecule]⟩
  | sphere =>
    obtain rfl := Except.ok.inj h
    exact ⟨rfl, by simp [Making.repr, attrsRepr, classNamed, sphere, initMolecule]⟩
  | trimer r d an s =>
    simp only [Making.mol, trimer] at h
    split at h <;> try cases h
    split at h <;> try cases h
    split at h <;> try cases h
    exact ⟨rfl, by simp [Making.repr, trimerRepr, classNamed, initMolecule]⟩
  | dimer r d s =>
    simp only [Making.mol, dimer] at h
    split at h <;> try cases h
    all_goals exact ⟨rfl, by simp [Making.repr, attrsRepr, classNamed, initMolecule]⟩

/-- The molecules that can always be made, and a trimer. -/
example : (∃ a, Making.disc.mol = .ok a) ∧ (∃ a, Making.sphere.mol = .ok a) ∧
    ∃ a, (Making.trimer (.float 1) (.int 1) (.int 120) (.int 1)).mol = .ok a :=
  ⟨⟨_, rfl⟩, ⟨_, rfl⟩, ⟨_, rfl⟩⟩

end Verif.Molecule
