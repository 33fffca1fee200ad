import Mathlib.Tactic.Positivity
import Verif.Molecule.Spec
/-!
# Lemmas about molecules
-/

namespace Verif.Molecule

open Verif.Motion (V3)

theorem sum_sub_const (l : List ℝ) (c : ℝ) :
    (l.map (fun x => x - c)).sum = l.sum - l.length * c := by
  induction l with
  | nil => simp
  | cons x l ih =>
    simp only [List.map_cons, List.sum_cons, ih, List.length_cons, Nat.cast_add, Nat.cast_one]
    ring

theorem mean_sub_mean (l : List ℝ) (h : l ≠ []) :
    (l.map (fun x => x - l.sum / l.length)).sum / l.length = 0 := by
  have : (l.length : ℝ) ≠ 0 := by
    have := List.length_pos_iff.2 h
    exact_mod_cast this.ne'
  rw [sum_sub_const]
  field_simp
  ring

theorem centre_centred (ps : List V3) (h : ps ≠ []) :
    centre (ps.map (fun p => p - centre ps)) = 0 := by
  have h1 := mean_sub_mean (ps.map (fun p => p.1)) (by simpa using h)
  have h2 := mean_sub_mean (ps.map (fun p => p.2.1)) (by simpa using h)
  have h3 := mean_sub_mean (ps.map (fun p => p.2.2)) (by simpa using h)
  rw [List.length_map, List.map_map] at h1 h2 h3
  unfold centre
  rw [List.map_map, List.map_map, List.map_map, List.length_map]
  refine Prod.ext ?_ (Prod.ext ?_ ?_)
  · exact h1
  · exact h2
  · exact h3

theorem attr_eq_comm (a b : Attr) : Attr.eq a b = Attr.eq b a := by
  cases a <;> cases b <;> simp [Attr.eq, eq_comm]

theorem attr_eq_self (a : Attr) (h1 : a ≠ .nan) (h2 : a ≠ .missing) : Attr.eq a a = .ok true := by
  cases a <;> simp_all [Attr.eq]

theorem attr_eq_true (a b : Attr) (h : Attr.eq a b = .ok true) : a = b := by
  cases a <;> cases b <;> simp_all [Attr.eq]

theorem attr_eq_ok (a b : Attr) (h1 : a ≠ .missing) (h2 : b ≠ .missing) :
    ∃ r, Attr.eq a b = .ok r := by
  cases a <;> cases b <;> simp_all [Attr.eq]

theorem andThen_true (a b : Except PyErr Bool) :
    andThen a b = .ok true ↔ a = .ok true ∧ b = .ok true := by
  rcases a with e | _ | _ <;> simp [andThen]

theorem andThen_ok (a b : Except PyErr Bool) (ha : ∃ r, a = .ok r) (hb : ∃ r, b = .ok r) :
    ∃ r, andThen a b = .ok r := by
  obtain ⟨ra, rfl⟩ := ha
  obtain ⟨rb, rfl⟩ := hb
  cases ra <;> simp [andThen]

theorem eqMethod_comm (a b : Mol) (h : a.cls = b.cls) : eqMethod a b = eqMethod b a := by
  unfold eqMethod
  rw [h, attr_eq_comm a.radius, attr_eq_comm a.distance, attr_eq_comm a.angle]

/-- The attributes of constructed molecules. -/
theorem Constructed.attrs {m : Mol} (h : Constructed m) :
    ((m.cls = .molecule ∨ m.cls = .disc ∨ m.cls = .sphere) ∧
      m.radius = .missing ∧ m.distance = .missing ∧ m.angle = .missing) ∨
    (m.cls = .trimer ∧ m.radius ≠ .missing ∧ m.distance ≠ .missing ∧ m.angle ≠ .missing) ∨
    (m.cls = .dimer ∧ m.radius ≠ .missing ∧ m.distance ≠ .missing ∧ m.angle = .missing) := by
  have hattr : ∀ a : Arg, a.isNumber = true → a.attr ≠ .missing := by
    intro a h
    cases a <;> simp_all [Arg.isNumber, Arg.attr]
  cases h with
  | molecule p q r => left; exact ⟨Or.inl rfl, rfl, rfl, rfl⟩
  | disc => left; exact ⟨Or.inr (Or.inl rfl), rfl, rfl, rfl⟩
  | sphere => left; exact ⟨Or.inr (Or.inr rfl), rfl, rfl, rfl⟩
  | trimer r d a m h =>
    right; left
    unfold Molecule.trimer at h
    split_ifs at h with h1 h2 h3
    cases h
    exact ⟨rfl, hattr _ (by simpa using h1), hattr _ (by simpa using h2), hattr _ (by simpa using h3)⟩
  | dimer r d m hr h =>
    right; right
    have hr' : r.attr ≠ .missing := hattr _ (by cases r <;> simp_all [Arg.isNumber])
    cases d <;> simp only [Molecule.dimer, reduceCtorEq] at h <;> cases h
    · exact ⟨rfl, hr', by simp [initMolecule, Arg.attr], rfl⟩
    · exact ⟨rfl, hr', by simp [initMolecule, Arg.attr], rfl⟩

end Verif.Molecule
