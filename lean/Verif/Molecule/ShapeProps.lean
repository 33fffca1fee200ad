import Verif.Molecule.ShapeLemmas
import Verif.Molecule.Props
/-!
# C174: equality of molecules and their shape
-/

namespace Verif.Molecule

open Verif.Motion (V3)

/-- **C174 (partial).**  The full statement is that two molecules are equal exactly when they have the same shape
(the same particles at the same places with the same radii).  Leaving plain `Molecule` objects and NaN aside,
molecules that are equal have the same shape. -/
theorem C174_equal_partial (a b : Mol) (ha : Constructed a) (hb : Constructed b) (hpa : a.cls ≠ .molecule)
    (hpb : b.cls ≠ .molecule) (hn : NoNaN a) (h : pyEq a b = .ok true) : SameShape a b := by
  obtain ⟨r, hr, hk⟩ := C66_equivalence_partial a b ha hb hpa hpb hn
  rw [h] at hr
  cases hr
  obtain ⟨hc, hrad, hdist, hang⟩ := hk.1 rfl
  obtain ⟨n1, n2, n3⟩ := hn
  cases ha with
  | molecule => exact absurd rfl hpa
  | disc =>
    cases hb with
    | molecule => exact absurd rfl hpb
    | disc => exact ⟨rfl, rfl, rfl⟩
    | sphere => cases hc
    | trimer r d a m h => obtain ⟨-, -, -, rfl⟩ := trimer_ok h; cases hc
    | dimer r d m hr h => obtain ⟨rfl, -⟩ := dimer_ok h; cases hc
  | sphere =>
    cases hb with
    | molecule => exact absurd rfl hpb
    | disc => cases hc
    | sphere => exact ⟨rfl, rfl, rfl⟩
    | trimer r d a m h => obtain ⟨-, -, -, rfl⟩ := trimer_ok h; cases hc
    | dimer r d m hr h => obtain ⟨rfl, -⟩ := dimer_ok h; cases hc
  | trimer r d a m h =>
    obtain ⟨k1, k2, k3, rfl⟩ := trimer_ok h
    cases hb with
    | molecule => exact absurd rfl hpb
    | disc => cases hc
    | sphere => cases hc
    | trimer r' d' a' m h' =>
      obtain ⟨-, -, -, rfl⟩ := trimer_ok h'
      have e1 := Arg.toReal_of_attr n1 hrad (Arg.attr_ne_missing k1)
      have e2 := Arg.toReal_of_attr n2 hdist (Arg.attr_ne_missing k2)
      have e3 := Arg.toReal_of_attr n3 hang (Arg.attr_ne_missing k3)
      rw [e1, e2, e3]
      exact ⟨rfl, rfl, rfl⟩
    | dimer r d m hr h => obtain ⟨rfl, -⟩ := dimer_ok h; cases hc
  | dimer r d m hr h =>
    obtain ⟨rfl, k2⟩ := dimer_ok h
    cases hb with
    | molecule => exact absurd rfl hpb
    | disc => cases hc
    | sphere => cases hc
    | trimer r d a m h => obtain ⟨-, -, -, rfl⟩ := trimer_ok h; cases hc
    | dimer r' d' m hr' h' =>
      obtain ⟨rfl, -⟩ := dimer_ok h'
      have e1 := Arg.toReal_of_attr n1 hrad (by cases r <;> first | exact absurd rfl hr | (intro h; cases h))
      have e2 := Arg.toReal_of_attr n2 hdist (by cases d <;> first | exact absurd rfl k2 | (intro h; cases h))
      rw [e1, e2]
      exact ⟨rfl, rfl, rfl⟩

/-- A trimer made with an int and one made with a float. -/
example : ∃ a b, Constructed a ∧ Constructed b ∧ a.cls ≠ .molecule ∧ b.cls ≠ .molecule ∧ NoNaN a ∧
    pyEq a b = .ok true :=
  ⟨_, _, .trimer (.float (1 / 2)) (.int 1) (.int 120) _ rfl, .trimer (.float (1 / 2)) (.float 1) (.float 120) _ rfl,
    by simp [initMolecule], by simp [initMolecule], by simp [NoNaN, Attr.real, initMolecule, Arg.attr],
    by simp [pyEq, eqMethod, initMolecule, Cls.sub, Arg.attr, Attr.eq, andThen]⟩

/-- **C174 (refuted).**  Plain molecules are equal whatever their shape: here one particle and two. -/
theorem C174_equal_refuted : ∃ a b, Constructed a ∧ Constructed b ∧ NoNaN a ∧ pyEq a b = .ok true ∧
    ¬ SameShape a b := by
  refine ⟨_, _, .molecule ["A"] [(0, 0, 0)] [], .molecule ["A", "A"] [(0, 0, 0), (0, 1, 0)] [], ?_, ?_, ?_⟩
  · simp [NoNaN, Attr.real, molecule, initMolecule]
  · simp [pyEq, eqMethod, molecule, initMolecule, Cls.sub]
  · rintro ⟨h, -⟩
    simp [molecule, initMolecule] at h

/-- **C174 (partial).**  The other direction holds for trimers with a positive distance and an angle from 0 to
360: those of the same shape are equal. -/
theorem C174_shape_partial {r d a r' d' a' : ℝ} {m m' : Mol} (hm : trimer (.float r) (.float d) (.float a) = .ok m)
    (hm' : trimer (.float r') (.float d') (.float a') = .ok m') (hd : 0 < d) (hd' : 0 < d')
    (ha : 0 ≤ a ∧ a ≤ 360) (ha' : 0 ≤ a' ∧ a' ≤ 360) (h : SameShape m m') : pyEq m m' = .ok true := by
  obtain ⟨-, -, -, rfl⟩ := trimer_ok hm
  obtain ⟨-, -, -, rfl⟩ := trimer_ok hm'
  obtain ⟨-, hp, hr⟩ := h
  simp only [initMolecule, Arg.toReal, Option.getD_some] at hp hr
  obtain ⟨h1, h2⟩ := trimer_differences hp
  obtain ⟨rfl, rfl⟩ := polar_unique hd hd' ha ha' h1 h2
  have e : r = r' := by
    have k (x : ℝ) : Dict.setdefault [("A", (1 : ℝ)), ("B", x)] "A" 1 = [("A", 1), ("B", x)] := rfl
    rw [k, k] at hr
    simpa using hr
  subst e
  simp [pyEq, eqMethod, initMolecule, Cls.sub, Arg.attr, Attr.eq, andThen]

/-- The trimer of the default parameters. -/
example : ∃ m, trimer (.float 0.637556) (.float 1) (.float 120) = .ok m ∧ (0 : ℝ) < 1 ∧
    ((0 : ℝ) ≤ 120 ∧ (120 : ℝ) ≤ 360) :=
  ⟨_, rfl, by norm_num, by norm_num⟩

/-- **C174 (refuted).**  Trimers of the same shape need not be equal: their parameters are compared, and the angles
120 and 840 give the same places. -/
theorem C174_shape_refuted : ∃ a b, Constructed a ∧ Constructed b ∧ NoNaN a ∧ NoNaN b ∧ SameShape a b ∧
    pyEq a b = .ok false := by
  have e : trimerPositions 1 120 = trimerPositions 1 (120 + 720) := by
    obtain ⟨h1, h2⟩ := deg2rad_two_turns 120
    simp only [trimerPositions, h1, h2]
  obtain ⟨a, ha⟩ : ∃ m, trimer (.float (1 / 2)) (.float 1) (.float 120) = .ok m := ⟨_, rfl⟩
  obtain ⟨b, hb⟩ : ∃ m, trimer (.float (1 / 2)) (.float 1) (.float (120 + 720)) = .ok m := ⟨_, rfl⟩
  refine ⟨a, b, .trimer _ _ _ _ ha, .trimer _ _ _ _ hb, ?_⟩
  obtain ⟨-, -, -, rfl⟩ := trimer_ok ha
  obtain ⟨-, -, -, rfl⟩ := trimer_ok hb
  refine ⟨?_, ?_, ⟨rfl, ?_, rfl⟩, ?_⟩
  · simp [NoNaN, Attr.real, initMolecule, Arg.attr]
  · simp [NoNaN, Attr.real, initMolecule, Arg.attr]
  · simp only [initMolecule, Arg.toReal, Option.getD_some, e]
  · simp [pyEq, eqMethod, initMolecule, Cls.sub, Arg.attr, Attr.eq, andThen]

end Verif.Molecule
