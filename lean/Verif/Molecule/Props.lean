import Verif.Molecule.Lemmas
/-!
# Properties of molecules: C65, C66, C87
-/

namespace Verif.Molecule

open Verif.Motion (V3)

/-! ### C65: centred, and the given shape -/

/-- **C65.** Whatever the positions (at least one), the centre of the molecule is the origin, there
are as many positions as before, and their differences are unchanged. -/
theorem C65_centred (cls : Cls) (dim : Int) (particles : List String) (positions : List V3)
    (hne : positions ≠ []) (radii : Dict String ℝ) (rigid : Bool) (r d a : Attr) :
    let m := initMolecule cls dim particles positions radii rigid r d a
    centre m.positions = 0 ∧ m.positions.length = positions.length ∧
    ∀ (i j : Nat) (p q p' q' : V3), positions[i]? = some p → positions[j]? = some q →
      m.positions[i]? = some p' → m.positions[j]? = some q' → p' - q' = p - q := by
  refine ⟨centre_centred positions hne, by simp [initMolecule], ?_⟩
  intro i j p q p' q' hp hq hp' hq'
  simp only [initMolecule, List.getElem?_map, hp, hq, Option.map_some, Option.some.injEq] at hp' hq'
  rw [← hp', ← hq']
  abel

example : ([(0, 0, 0), (0, 1, 0)] : List V3) ≠ [] := by simp

/-- **C65.** Every molecule with particles that can be constructed is centred. -/
theorem C65_all_centred (m : Mol) (h : Constructed m) (hne : m.positions ≠ []) :
    centre m.positions = 0 := by
  cases h with
  | molecule p q r =>
    refine centre_centred _ ?_
    simpa [molecule, initMolecule] using hne
  | disc => exact centre_centred _ (by simp)
  | sphere => exact centre_centred _ (by simp)
  | trimer r d a m h =>
    unfold trimer at h
    split_ifs at h
    cases h
    exact centre_centred _ (by simp [trimerPositions])
  | dimer r d m _ h =>
    cases d <;> simp only [dimer, reduceCtorEq] at h <;> cases h <;>
      exact centre_centred _ (by simp)

example : Constructed (molecule ["A", "A"] [(1, 0, 0), (3, 0, 0)]) ∧
    (molecule ["A", "A"] [(1, 0, 0), (3, 0, 0)]).positions ≠ [] :=
  ⟨.molecule _ _ _, by simp [molecule, initMolecule]⟩

/-- **C65.** A trimer of numbers: the outer particles are at the given distance from the central
one, and the angle between them is the given one, so `cos` of it is the normalised scalar product. -/
theorem C65_trimer (r d a : Arg) (dist angle : ℝ) (hr : r.isNumber = true)
    (hd : d.toReal = some dist) (ha : a.toReal = some angle) :
    ∃ m p0 p1 p2, trimer r d a = .ok m ∧ m.positions = [p0, p1, p2] ∧ m.dimensions = 2 ∧
      dist3 p1 p0 = |dist| ∧ dist3 p2 p0 = |dist| ∧
      dot3 (p1 - p0) (p2 - p0) = dist ^ 2 * Real.cos (angle * Real.pi / 180) ∧
      dist3 p1 p2 = 2 * |dist * Real.sin (angle * Real.pi / 180 / 2)| ∧
      centre m.positions = 0 := by
  have hdn : d.isNumber = true := by cases d <;> simp_all [Arg.isNumber, Arg.toReal]
  have han : a.isNumber = true := by cases a <;> simp_all [Arg.isNumber, Arg.toReal]
  have hm : trimer r d a = .ok (initMolecule .trimer 2 ["A", "B", "B"]
    (trimerPositions dist angle)
    [("A", 1), ("B", r.toReal.getD 0)] true r.attr d.attr a.attr) := by
    unfold trimer
    rw [hr, hdn, han, hd, ha]
    simp
  refine ⟨_, _, _, _, hm, rfl, rfl, ?_, ?_, ?_, ?_, ?_⟩
  rotate_right
  · exact centre_centred _ (by simp [trimerPositions])
  all_goals
    have hsc := Real.sin_sq_add_cos_sq (deg2rad angle / 2)
    generalize centre (trimerPositions dist angle) = c
  · unfold dist3 dot3
    rw [← Real.sqrt_sq_eq_abs]
    congr 1
    simp only [Prod.fst_sub, Prod.snd_sub]
    nlinarith
  · unfold dist3 dot3
    rw [← Real.sqrt_sq_eq_abs]
    congr 1
    simp only [Prod.fst_sub, Prod.snd_sub]
    nlinarith
  · have hcos : Real.cos (angle * Real.pi / 180) =
        2 * Real.cos (deg2rad angle / 2) ^ 2 - 1 := by
      rw [← Real.cos_two_mul]
      congr 1
      unfold deg2rad
      ring
    unfold dot3
    rw [hcos]
    simp only [Prod.fst_sub, Prod.snd_sub]
    nlinarith
  · have h2 : (2 : ℝ) * |dist * Real.sin (angle * Real.pi / 180 / 2)| =
        |2 * (dist * Real.sin (angle * Real.pi / 180 / 2))| := by
      rw [abs_mul 2, abs_two]
    unfold dist3 dot3
    rw [h2, ← Real.sqrt_sq_eq_abs]
    congr 1
    simp only [Prod.fst_sub, Prod.snd_sub, deg2rad]
    ring

/-- The default trimer. -/
example : (Arg.float 0.637556).isNumber = true ∧ (Arg.float 1).toReal = some 1 ∧
    (Arg.int 120).toReal = some 120 := by simp [Arg.isNumber, Arg.toReal]

/-- **C65 (partial).** The full statement is for all parameters.  A dimer whose distance is a `float`
has its two particles at that distance; an `int` distance is refused, see `C65_dimer_refuted`. -/
theorem C65_dimer_partial (r : Arg) (dist : ℝ) :
    ∃ m p0 p1, dimer r (.float dist) = .ok m ∧ m.positions = [p0, p1] ∧ m.dimensions = 2 ∧
      dist3 p1 p0 = |dist| ∧ centre m.positions = 0 := by
  refine ⟨_, _, _, rfl, rfl, rfl, ?_, ?_⟩
  · simp only [Arg.toReal, Option.getD_some]
    generalize centre _ = c
    unfold dist3 dot3
    rw [← Real.sqrt_sq_eq_abs]
    congr 1
    simp only [Prod.fst_sub, Prod.snd_sub]
    ring
  · exact centre_centred _ (by simp)

/-- **C65 (refuted for `int` distances).** `Dimer(distance=1)` is a TypeError for every integer,
while `Trimer` accepts integers. -/
theorem C65_dimer_refuted :
    ¬ (∀ (r d : Arg) (dist : ℝ), d.toReal = some dist → ∃ m, dimer r d = .ok m) ∧
    (∀ (r : Arg) (n : Int), dimer r (.int n) = .error .typeError) := by
  refine ⟨?_, fun _ _ => rfl⟩
  intro h
  obtain ⟨m, hm⟩ := h (.float 1) (.int 1) 1 (by simp [Arg.toReal])
  simp [dimer] at hm

/-- **C65.** The molecules lie in the plane: the two particles of a dimer are on a line parallel to
the y axis, the outer particles of a trimer are mirror images in that line through the central one. -/
theorem C65_placement (r d a : Arg) (dist angle : ℝ) (hr : r.isNumber = true)
    (hd : d.toReal = some dist) (ha : a.toReal = some angle) :
    (∀ m, dimer r d = .ok m → ∃ p0 p1, m.positions = [p0, p1] ∧ p1 - p0 = (0, dist, 0)) ∧
    (∃ m p0 p1 p2 x y, trimer r d a = .ok m ∧ m.positions = [p0, p1, p2] ∧
      p1 - p0 = (-x, y, 0) ∧ p2 - p0 = (x, y, 0) ∧
      x = dist * Real.sin (angle * Real.pi / 360) ∧ y = dist * Real.cos (angle * Real.pi / 360)) := by
  have hdn : d.isNumber = true := by cases d <;> simp_all [Arg.isNumber, Arg.toReal]
  have han : a.isNumber = true := by cases a <;> simp_all [Arg.isNumber, Arg.toReal]
  constructor
  · intro m h
    have hm : m.positions = [(0, 0, 0), (0, dist, 0)].map
        (fun p : V3 => p - centre [(0, 0, 0), (0, dist, 0)]) := by
      cases d <;> simp only [dimer, reduceCtorEq] at h <;> cases h <;> simp_all [initMolecule]
    refine ⟨_, _, hm, ?_⟩
    generalize centre _ = c
    ext <;> simp
  · have ht : ∃ m, trimer r d a = .ok m ∧ m.positions =
        (trimerPositions dist angle).map (fun p => p - centre (trimerPositions dist angle)) := by
      unfold trimer
      rw [if_neg (by simp [hr]), if_neg (by simp [hdn]), if_neg (by simp [han])]
      exact ⟨_, rfl, by simp [initMolecule, hd, ha]⟩
    obtain ⟨m, hm, hp⟩ := ht
    have hh : deg2rad angle / 2 = angle * Real.pi / 360 := by
      unfold deg2rad
      ring
    refine ⟨m, _, _, _, _, _, hm, hp, ?_, ?_, rfl, rfl⟩
    · generalize centre _ = c
      rw [← hh]
      ext <;> simp
    · generalize centre _ = c
      rw [← hh]
      ext <;> simp

example : (Arg.float 0.637556).isNumber = true ∧ (Arg.float 1).toReal = some 1 ∧
    (Arg.int 120).toReal = some 120 := by simp [Arg.isNumber, Arg.toReal]

/-- **C65.** Anything that is not a number is refused by `Trimer` with ValueError. -/
theorem C65_trimer_checked (r d a : Arg) (h : r = .other ∨ d = .other ∨ a = .other) :
    trimer r d a = .error .valueError := by
  unfold trimer
  rcases h with rfl | rfl | rfl
  · simp [Arg.isNumber]
  · split_ifs <;> simp_all [Arg.isNumber]
  · split_ifs <;> simp_all [Arg.isNumber]

example : trimer (.float 1) .other (.int 120) = .error .valueError :=
  C65_trimer_checked _ _ _ (Or.inr (Or.inl rfl))

/-- **C65.** Trimers and dimers have a radius for each of their particles, one position for each, and
the types A and B. -/
theorem C65_radii (r d a : Arg) (x : ℝ) (hx : r.toReal = some x) (m : Mol) :
    (trimer r d a = .ok m → m.getRadii = .ok [1, x, x] ∧ m.numParticles = 3 ∧
      m.positions.length = 3 ∧ m.getTypes = ["A", "B"] ∧ m.str = "Trimer") ∧
    (dimer r d = .ok m → m.getRadii = .ok [1, x] ∧ m.numParticles = 2 ∧
      m.positions.length = 2 ∧ m.getTypes = ["A", "B"] ∧ m.str = "Dimer") := by
  have hsort : sortStrings ["A", "B"] = ["A", "B"] :=
    List.mergeSort_of_pairwise (by
      have h : ("A" : String) ≤ "B" := by decide
      simp [h])
  constructor
  · intro h
    unfold trimer at h
    split_ifs at h
    cases h
    refine ⟨?_, rfl, ?_, ?_, rfl⟩
    · simp [Mol.getRadii, initMolecule, Dict.setdefault, Dict.mem, Dict.get?, hx]
    · simp [initMolecule, trimerPositions]
    · simpa [Mol.getTypes, initMolecule, Dict.setdefault, Dict.mem, Dict.get?] using hsort
  · intro h
    cases d <;> simp only [dimer, reduceCtorEq] at h <;> cases h <;>
      refine ⟨?_, rfl, ?_, ?_, rfl⟩
    · simp [Mol.getRadii, initMolecule, Dict.setdefault, Dict.mem, Dict.get?, hx]
    · simp [initMolecule]
    · simpa [Mol.getTypes, initMolecule, Dict.setdefault, Dict.mem, Dict.get?] using hsort
    · simp [Mol.getRadii, initMolecule, Dict.setdefault, Dict.mem, Dict.get?, hx]
    · simp [initMolecule]
    · simpa [Mol.getTypes, initMolecule, Dict.setdefault, Dict.mem, Dict.get?] using hsort

example : (Arg.float 0.637556).toReal = some 0.637556 ∧
    ∃ m, trimer (.float 0.637556) (.float 1) (.int 120) = .ok m := ⟨rfl, _, rfl⟩

/-- **C65.** Discs and spheres have one particle of radius one half at the origin. -/
theorem C65_disc_sphere :
    disc.positions = [0] ∧ sphere.positions = [0] ∧ disc.getRadii = .ok [1 / 2] ∧
    sphere.getRadii = .ok [1 / 2] ∧ disc.dimensions = 2 ∧ sphere.dimensions = 3 ∧
    disc.numParticles = 1 ∧ sphere.numParticles = 1 ∧ disc.str = "Disc" ∧ sphere.str = "Sphere" ∧
    disc.getTypes = ["A"] ∧ sphere.getTypes = ["A"] := by
  have : ∀ c, centre [c] = c := by
    intro c
    simp [centre]
  refine ⟨?_, ?_, ?_, ?_, rfl, rfl, rfl, rfl, rfl, rfl, ?_, ?_⟩
  · simp [disc, initMolecule, this]
  · simp [sphere, initMolecule, this]
  · simp [disc, Mol.getRadii, initMolecule, Dict.get?]
  · simp [sphere, Mol.getRadii, initMolecule, Dict.get?]
  · simp [disc, Mol.getTypes, sortStrings]
  · simp [sphere, Mol.getTypes, sortStrings]

/-- **C65.** Discs, trimers and dimers, and no other molecules, are two-dimensional, and their particles lie in the
plane; all others are three-dimensional. -/
theorem C65_flat (m : Mol) (h : Constructed m) :
    (m.dimensions = 2 ↔ m.cls = .disc ∨ m.cls = .trimer ∨ m.cls = .dimer) ∧
    (m.dimensions ≠ 2 → m.dimensions = 3) ∧
    (m.dimensions = 2 → ∀ p ∈ m.positions, p.2.2 = 0) := by
  have flat : ∀ l : List V3, (∀ p ∈ l, p.2.2 = 0) →
      ∀ p ∈ l.map (fun p => p - centre l), p.2.2 = 0 := by
    intro l hl p hp
    obtain ⟨q, hq, rfl⟩ := List.mem_map.1 hp
    have hz : l.map (fun p => p.2.2) = l.map (fun _ => (0 : ℝ)) := List.map_congr_left hl
    have : (centre l).2.2 = 0 := by
      unfold centre
      simp only [hz]
      simp
    rw [Prod.snd_sub, Prod.snd_sub, this, hl q hq, sub_zero]
  cases h with
  | molecule particles positions radii =>
    exact ⟨by simp [molecule, initMolecule], fun _ => rfl, by simp [molecule, initMolecule]⟩
  | disc =>
    refine ⟨by simp [disc, initMolecule], by simp [disc, initMolecule], fun _ => ?_⟩
    exact flat [(0, 0, 0)] (by simp)
  | sphere => exact ⟨by simp [sphere, initMolecule], fun _ => rfl, by simp [sphere, initMolecule]⟩
  | trimer r d a m h =>
    unfold trimer at h
    split_ifs at h
    cases h
    refine ⟨by simp [initMolecule], by simp [initMolecule], fun _ => ?_⟩
    exact flat (trimerPositions _ _) (by simp [trimerPositions])
  | dimer r d m hr h =>
    cases d <;> simp only [dimer, reduceCtorEq] at h <;> cases h
    · refine ⟨by simp [initMolecule], by simp [initMolecule], fun _ => ?_⟩
      exact flat [(0, 0, 0), (0, _, 0)] (by simp)
    · refine ⟨by simp [initMolecule], by simp [initMolecule], fun _ => ?_⟩
      exact flat [(0, 0, 0), (0, _, 0)] (by simp)

example : (Molecule.molecule).dimensions = 3 ∧ Constructed Molecule.molecule := ⟨rfl, .molecule _ _ _⟩

/-! ### C66: equality -/

/-- **C66, symmetry.** `a == b` and `b == a` have the same outcome, an exception included. -/
theorem C66_symmetric (a b : Mol) : pyEq a b = pyEq b a := by
  unfold pyEq
  by_cases h : a.cls = b.cls
  · rw [if_neg (by simp [h]), if_neg (by simp [h])]
    exact eqMethod_comm a b h
  · by_cases h1 : b.cls.sub a.cls = true
    · have h2 : b.cls.sub a.cls = true ∧ ¬ a.cls.sub b.cls = true := by
        refine ⟨h1, ?_⟩
        revert h h1
        cases a.cls <;> cases b.cls <;> decide
      rw [if_pos ⟨h, h1⟩, if_neg (fun h3 => h2.2 h3.2)]
    · by_cases h2 : a.cls.sub b.cls = true
      · rw [if_neg (fun h3 => h1 h3.2), if_pos ⟨fun h3 => h h3.symm, h2⟩]
      · rw [if_neg (fun h3 => h1 h3.2), if_neg (fun h3 => h2 h3.2)]
        unfold eqMethod
        rw [if_neg h2, if_neg h1]

/-- **C66, reflexivity (partial).** The full statement is for all molecules; a NaN parameter equals
nothing, so it is proved without NaN. -/
theorem C66_reflexive_partial (m : Mol) (h : Constructed m) (hn : NoNaN m) : pyEq m m = .ok true := by
  rw [pyEq, if_neg (by simp), eqMethod, if_pos (by cases m.cls <;> rfl)]
  obtain ⟨hr, hd, ha⟩ := hn
  rcases h.attrs with ⟨hc | hc | hc, -⟩ | ⟨hc, h1, h2, h3⟩ | ⟨hc, h1, h2, h3⟩
  · rw [hc]
  · rw [hc]
  · rw [hc]
  · rw [hc]
    simp only
    rw [attr_eq_self _ hr h1, attr_eq_self _ hd h2, attr_eq_self _ ha h3]
    rfl
  · rw [hc]
    simp only
    rw [attr_eq_self _ hr h1, attr_eq_self _ hd h2]
    rfl

example : Constructed disc ∧ NoNaN disc :=
  ⟨.disc, by simp [NoNaN, disc, initMolecule, Attr.real]⟩

/-- **C66 (refuted for NaN).** A trimer with a NaN radius is not equal to itself. -/
theorem C66_reflexive_refuted : ∃ m, Constructed m ∧ pyEq m m = .ok false := by
  refine ⟨_, .trimer .nan (.float 1) (.float 120) _ rfl, ?_⟩
  simp [pyEq, eqMethod, initMolecule, Cls.sub, Arg.attr, Attr.eq, andThen]

/-- **C66 (refuted).** `==` is not transitive: a disc equals a plain molecule, which equals a sphere,
but a disc does not equal a sphere.  And it raises: a trimer compared with a plain molecule is an
AttributeError. -/
theorem C66_equivalence_refuted :
    ¬ (∀ a b c : Mol, Constructed a → Constructed b → Constructed c →
      pyEq a b = .ok true → pyEq b c = .ok true → pyEq a c = .ok true) ∧
    ¬ (∀ a b : Mol, Constructed a → Constructed b → ∃ r, pyEq a b = .ok r) := by
  constructor
  · intro h
    have := h disc molecule sphere .disc (.molecule _ _ _) .sphere
      (by simp [pyEq, eqMethod, disc, molecule, initMolecule, Cls.sub])
      (by simp [pyEq, eqMethod, sphere, molecule, initMolecule, Cls.sub])
    simp [pyEq, eqMethod, disc, sphere, initMolecule, Cls.sub] at this
  · intro h
    obtain ⟨r, hr⟩ := h molecule _ (.molecule _ _ _)
      (.trimer (.float 1) (.float 1) (.float 120) _ rfl)
    simp [pyEq, eqMethod, molecule, initMolecule, Cls.sub, Arg.attr, Attr.eq, andThen] at hr

/-- **C66 (partial).** The full statement is that `==` is an equivalence on all molecules and never
raises.  Leaving plain `Molecule` objects and NaN aside it is: it never raises and means "same class
and same parameters". -/
theorem C66_equivalence_partial (a b : Mol) (ha : Constructed a) (hb : Constructed b)
    (hpa : a.cls ≠ .molecule) (hpb : b.cls ≠ .molecule) (hn : NoNaN a) :
    ∃ r, pyEq a b = .ok r ∧ (r = true ↔ SameKind a b) := by
  have hsub : ∀ c d : Cls, c ≠ .molecule → d ≠ .molecule → (c.sub d = true ↔ c = d) := by
    intro c d hc hd
    cases c <;> cases d <;> simp_all [Cls.sub]
  have hne : ¬ (a.cls ≠ b.cls ∧ b.cls.sub a.cls = true) := by
    rintro ⟨h1, h2⟩
    exact h1 ((hsub _ _ hpb hpa).1 h2).symm
  rw [pyEq, if_neg hne]
  by_cases hc : a.cls = b.cls
  swap
  · refine ⟨false, ?_, by simp [SameKind, hc]⟩
    rw [eqMethod, if_neg (fun h => hc ((hsub _ _ hpa hpb).1 h))]
  rw [eqMethod, if_pos ((hsub _ _ hpa hpb).2 hc)]
  obtain ⟨hr, hd, hang⟩ := hn
  have hself : ∀ x y : Attr, x ≠ .nan → x ≠ .missing → y ≠ .missing →
      ∃ r, Attr.eq x y = .ok r ∧ (r = true ↔ x = y) := by
    intro x y h1 h2 h3
    obtain ⟨r, hr⟩ := attr_eq_ok x y h2 h3
    refine ⟨r, hr, ?_, ?_⟩
    · rintro rfl
      exact attr_eq_true x y hr
    · rintro rfl
      rw [attr_eq_self x h1 h2] at hr
      cases hr
      rfl
  rcases ha.attrs with ⟨h1, h2, h3, h4⟩ | ⟨h1, h2, h3, h4⟩ | ⟨h1, h2, h3, h4⟩
  · have hb' : b.radius = .missing ∧ b.distance = .missing ∧ b.angle = .missing := by
      rcases hb.attrs with ⟨-, h5⟩ | ⟨h5, -⟩ | ⟨h5, -⟩
      · exact h5
      · rw [hc, h5] at h1; simp at h1
      · rw [hc, h5] at h1; simp at h1
    refine ⟨true, ?_, ?_⟩
    · rcases h1 with h1 | h1 | h1
      · exact absurd h1 hpa
      · rw [h1]
      · rw [h1]
    · simp only [SameKind, hc, h2, h3, h4, hb'.1, hb'.2.1, hb'.2.2, and_self]
  · have hb' : b.radius ≠ .missing ∧ b.distance ≠ .missing ∧ b.angle ≠ .missing := by
      rcases hb.attrs with ⟨h5, -⟩ | ⟨h5, h6⟩ | ⟨h5, -⟩
      · rw [← hc, h1] at h5; simp at h5
      · exact h6
      · rw [← hc, h1] at h5; simp at h5
    obtain ⟨r1, e1, i1⟩ := hself _ _ hr h2 hb'.1
    obtain ⟨r2, e2, i2⟩ := hself _ _ hd h3 hb'.2.1
    obtain ⟨r3, e3, i3⟩ := hself _ _ hang h4 hb'.2.2
    refine ⟨r1 && (r2 && r3), ?_, ?_⟩
    · rw [h1]
      simp only [e1, e2, e3]
      cases r1 <;> cases r2 <;> rfl
    · rw [Bool.and_eq_true, Bool.and_eq_true, i1, i2, i3]
      simp [SameKind, hc]
  · have hb' : b.radius ≠ .missing ∧ b.distance ≠ .missing ∧ b.angle = .missing := by
      rcases hb.attrs with ⟨h5, -⟩ | ⟨h5, -⟩ | ⟨h5, h6⟩
      · rw [← hc, h1] at h5; simp at h5
      · rw [← hc, h1] at h5; simp at h5
      · exact h6
    obtain ⟨r1, e1, i1⟩ := hself _ _ hr h2 hb'.1
    obtain ⟨r2, e2, i2⟩ := hself _ _ hd h3 hb'.2.1
    refine ⟨r1 && r2, ?_, ?_⟩
    · rw [h1]
      simp only [e1, e2]
      cases r1 <;> rfl
    · rw [Bool.and_eq_true, i1, i2]
      simp [SameKind, hc, h4, hb'.2.2]

example : disc.cls ≠ .molecule ∧ sphere.cls ≠ .molecule := by
  simp [disc, sphere, initMolecule]

/-- **C66.** A plain molecule equals every other plain molecule (whatever its shape), disc and sphere,
and comparing it with a trimer or dimer always raises AttributeError. -/
theorem C66_plain (a b : Mol) (ha : Constructed a) (hpa : a.cls = .molecule) :
    ((b.cls = .trimer ∨ b.cls = .dimer) → pyEq a b = .error .attributeError) ∧
    ((b.cls = .molecule ∨ b.cls = .disc ∨ b.cls = .sphere) → pyEq a b = .ok true) := by
  have hr : a.radius = .missing := by
    rcases ha.attrs with ⟨-, h, -⟩ | ⟨h, -⟩ | ⟨h, -⟩
    · exact h
    · rw [hpa] at h; cases h
    · rw [hpa] at h; cases h
  have hatt : ∀ x : Attr, Attr.eq x .missing = .error .attributeError := by
    intro x; cases x <;> rfl
  constructor
  · rintro (h | h) <;>
    · rw [pyEq, if_pos (by rw [hpa, h]; decide), eqMethod, if_pos (by rw [hpa, h]; decide), h]
      simp only [hr, hatt]
      rfl
  · rintro (h | h | h)
    · rw [pyEq, if_neg (by rw [hpa, h]; decide), eqMethod, if_pos (by rw [hpa, h]; decide), hpa]
    · rw [pyEq, if_pos (by rw [hpa, h]; decide), eqMethod, if_pos (by rw [hpa, h]; decide), h]
    · rw [pyEq, if_pos (by rw [hpa, h]; decide), eqMethod, if_pos (by rw [hpa, h]; decide), h]

example : Constructed (molecule ["A", "A"] [(1, 0, 0), (3, 0, 0)]) ∧
    (molecule ["A", "A"] [(1, 0, 0), (3, 0, 0)]).cls = .molecule := ⟨.molecule _ _ _, rfl⟩

/-! ### C87: the arguments of the constructor -/

/-- **C87 (refuted).** `Molecule(positions=p, radii=r)` changes the array and the dictionary of the
caller: the array is shifted in place, and the key "A" is added. -/
theorem C87_arguments_refuted :
    ¬ (∀ positions radii, (callerAfter positions radii).1 = positions) ∧
    ¬ (∀ positions radii, (callerAfter positions radii).2 = radii) := by
  constructor
  · intro h
    have := h [(1, 0, 0)] []
    simp [callerAfter, centre] at this
    simpa using congrArg Prod.fst this
  · intro h
    have := h [] []
    simp [callerAfter, Dict.setdefault, Dict.mem, Dict.get?, Dict.set] at this

/-- **C87 (partial).** The full statement is that both stay as they are.  The positions do when they
are centred already, and the radii when they have an entry for "A". -/
theorem C87_arguments_partial (positions : List V3) (radii : Dict String ℝ) :
    (centre positions = 0 → (callerAfter positions radii).1 = positions) ∧
    ((Dict.get? radii "A").isSome → (callerAfter positions radii).2 = radii) := by
  constructor
  · intro h
    simp [callerAfter, h]
  · intro h
    simp [callerAfter, Dict.setdefault, Dict.mem, h]

/-- Two particles about the origin and a radius for the type A: nothing of the arguments is changed. -/
example : callerAfter [(1, 0, 0), (-1, 0, 0)] [("A", 1)] = ([(1, 0, 0), (-1, 0, 0)], [("A", 1)]) :=
  Prod.ext ((C87_arguments_partial _ _).1 (by ext <;> simp [centre])) ((C87_arguments_partial _ _).2 rfl)

/-- **C87, the exact condition.**  The array is left as it is iff it is empty or centred, and the
dictionary iff it has an entry for "A". -/
theorem C87_exactly (positions : List V3) (radii : Dict String ℝ) :
    ((callerAfter positions radii).1 = positions ↔ positions = [] ∨ centre positions = 0) ∧
    ((callerAfter positions radii).2 = radii ↔ Dict.get? radii "A" ≠ none) := by
  constructor
  · constructor
    · intro h
      cases positions with
      | nil => exact Or.inl rfl
      | cons p ps =>
        right
        have h1 := (List.cons.inj h).1
        simpa using h1
    · rintro (rfl | h)
      · rfl
      · exact (C87_arguments_partial positions radii).1 h
  · constructor
    · intro h hn
      have h1 : Dict.get? (callerAfter positions radii).2 "A" = some 1 := by
        simp [callerAfter, Dict.setdefault, Dict.mem, hn, Dict.get?_set]
      rw [h, hn] at h1
      cases h1
    · intro h
      exact (C87_arguments_partial positions radii).2 (Option.isSome_iff_ne_none.2 h)

example : centre ([(1, 0, 0), (-1, 0, 0)] : List V3) = 0 := by
  simp [centre]

end Verif.Molecule
