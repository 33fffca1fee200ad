import Verif.Molecule.ReprLemmas
/-!
# C177: what `repr` of a molecule says
-/

namespace Verif.Molecule

open Verif.Motion (V3)

/-- **C177 (partial).**  The full statement is that evaluating the `repr` of any molecule makes a molecule that
is equal to it.  It holds for trimers of numbers that are not NaN; the call made is even the same one, with
the scale that `==` does not look at. -/
theorem C177_trimer_partial (F : ℝ → Prop) (sh : Shown) (rd : Reader) (hf : FaithfulNumbers F sh rd)
    (r d a s : Arg)
    (hr : r.Plain F) (hd : d.Plain F) (ha : a.Plain F) (hs : s.Plain F) :
    evalCall rd ((Making.trimer r d a s).repr sh) = .ok (.trimer r d a s) ∧
      RoundTrip sh rd (.trimer r d a s) := by
  have he := evalCall_trimer F sh rd hf r d a s hr hd ha hs
  obtain ⟨m, ht, h1, h2, h3⟩ := trimer_made r d a hr.isNumber hd.isNumber ha.isNumber
  refine ⟨he, _, m, m, he, ht, ht, ?_⟩
  exact C66_reflexive_partial m (.trimer r d a m ht)
    ⟨h1 ▸ hr.attr_real, h2 ▸ hd.attr_real, h3 ▸ ha.attr_real⟩

/-- The hypotheses can be met: `Trimer(1.0, 2.0, 120)` with a reader of that kind. -/
example : RoundTrip strokes strokeReader (.trimer (.float 1) (.float 2) (.int 120) (.float 1)) :=
  (C177_trimer_partial twoFloats _ _ strokes_faithful (.float 1) (.float 2) (.int 120) (.float 1)
    (Or.inl rfl) (Or.inr rfl) trivial (Or.inl rfl)).2

/-- **C177, the texts.**  A trimer is written as `Trimer(radius=…, distance=…, angle=…, moment_inertia_scale=…)`,
the others as their class with `(dimensions=…, particles=…, _radii=…, rigid=…, moment_inertia_scale=…)`. -/
theorem C177_written (sh : Shown) :
    (∀ r d a s, ((Making.trimer r d a s).repr sh).text =
      "Trimer(radius=".toList ++ sh.number r ++ ", distance=".toList ++ sh.number d ++ ", angle=".toList ++
        sh.number a ++ ", moment_inertia_scale=".toList ++ sh.number s ++ [')']) ∧
    (∀ d p x rs g s, ((Making.molecule d p x rs g s).repr sh).text =
      "Molecule(dimensions=".toList ++ sh.number d ++ ", particles=".toList ++ sh.particles p ++
        ", _radii=".toList ++ sh.radii (if (Dict.get? rs "A").isSome then rs else rs ++ [("A", .float 1)]) ++
        (if g then ", rigid=True, moment_inertia_scale=".toList else ", rigid=False, moment_inertia_scale=".toList) ++
        sh.number s ++ [')']) ∧
    (∀ r d s, ((Making.dimer r d s).repr sh).text =
      "Dimer(dimensions=".toList ++ sh.number (.int 2) ++ ", particles=".toList ++ sh.particles ["A", "B"] ++
        ", _radii=".toList ++ sh.radii [("A", .float 1), ("B", r)] ++
        ", rigid=True, moment_inertia_scale=".toList ++ sh.number s ++ [')']) ∧
    (Making.disc.repr sh).text =
      "Disc(dimensions=".toList ++ sh.number (.int 2) ++ ", particles=".toList ++ sh.particles ["A"] ++
        ", _radii=".toList ++ sh.radii [("A", .float (1 / 2))] ++
        ", rigid=False, moment_inertia_scale=".toList ++ sh.number (.int 1) ++ [')'] ∧
    (Making.sphere.repr sh).text =
      "Sphere(dimensions=".toList ++ sh.number (.int 3) ++ ", particles=".toList ++ sh.particles ["A"] ++
        ", _radii=".toList ++ sh.radii [("A", .float (1 / 2))] ++
        ", rigid=False, moment_inertia_scale=".toList ++ sh.number (.int 1) ++ [')'] := by
  refine ⟨?_, ?_, ?_, ?_, ?_⟩
  · intro r d a s
    simp [Making.repr, trimerRepr, Call.text, argsText, argText]
  · intro d p x rs g s
    have : Dict.setdefault rs "A" (.float 1) =
        if (Dict.get? rs "A").isSome then rs else rs ++ [("A", .float 1)] := by
      unfold Dict.setdefault Dict.mem
      split
      · rfl
      · next h => exact set_absent _ _ _ (by simpa using h)
    rw [← this]
    cases g <;> simp [Making.repr, attrsRepr, Call.text, argsText, argText]
  · intro r d s
    simp [Making.repr, attrsRepr, Call.text, argsText, argText]
  · simp [Making.repr, attrsRepr, Call.text, argsText, argText]
  · simp [Making.repr, attrsRepr, Call.text, argsText, argText]

/-- With numbers written as in Python, the trimer of the default arguments. -/
example (sh : Shown) (h1 : sh.number (.float 0.637556) = "0.637556".toList) (h2 : sh.number (.float 1) = "1.0".toList)
    (h3 : sh.number (.int 120) = "120".toList) :
    ((Making.trimer (.float 0.637556) (.float 1) (.int 120) (.float 1)).repr sh).text =
      "Trimer(radius=0.637556, distance=1.0, angle=120, moment_inertia_scale=1.0)".toList := by
  rw [(C177_written sh).1, h1, h2, h3]
  decide

/-- **C177.**  The text of a trimer says which one it is: two trimers of numbers with the same text were made
with the same arguments. -/
theorem C177_text (F : ℝ → Prop) (sh : Shown) (rd : Reader) (hf : FaithfulNumbers F sh rd)
    (r d a s r' d' a' s' : Arg)
    (hr : r.Plain F) (hd : d.Plain F) (ha : a.Plain F) (hs : s.Plain F)
    (hr' : r'.Plain F) (hd' : d'.Plain F) (ha' : a'.Plain F) (hs' : s'.Plain F)
    (h : ((Making.trimer r d a s).repr sh).text = ((Making.trimer r' d' a' s').repr sh).text) :
    r = r' ∧ d = d' ∧ a = a' ∧ s = s' := by
  have key : ∀ x y : Arg, x.Plain F → y.Plain F → sh.number x = sh.number y → x = y := by
    intro x y hx hy e
    rw [← (hf.reads x hx).2, e, (hf.reads y hy).2]
  simp only [Making.repr, trimerRepr, Call.text, argsText, argText, List.append_assoc, List.cons_append,
    List.append_cancel_left_eq, List.cons.injEq, true_and] at h
  obtain ⟨e1, h⟩ := split_at (hf.noComma r hr) (hf.noComma r' hr') h
  simp only [List.append_cancel_left_eq, List.cons.injEq, true_and] at h
  obtain ⟨e2, h⟩ := split_at (hf.noComma d hd) (hf.noComma d' hd') h
  simp only [List.append_cancel_left_eq, List.cons.injEq, true_and] at h
  obtain ⟨e3, h⟩ := split_at (hf.noComma a ha) (hf.noComma a' ha') h
  simp only [List.append_cancel_left_eq, List.cons.injEq, true_and] at h
  obtain ⟨e4, -⟩ := split_at (hf.noBracket s hs) (hf.noBracket s' hs') h
  exact ⟨key _ _ hr hr' e1, key _ _ hd hd' e2, key _ _ ha ha' e3, key _ _ hs hs' e4⟩

/-- The texts of a trimer with an int and one with a float of the same size differ, though the two are equal. -/
example : ((Making.trimer (.int 1) (.int 1) (.int 120) (.int 1)).repr strokes).text ≠
    ((Making.trimer (.float 1) (.int 1) (.int 120) (.int 1)).repr strokes).text := by
  intro h
  have := (C177_text twoFloats _ _ strokes_faithful (.int 1) (.int 1) (.int 120) (.int 1) (.float 1) (.int 1)
    (.int 120) (.int 1) trivial trivial trivial trivial
    (Or.inl rfl) trivial trivial trivial h).1
  cases this

/-- **C177 is false** for everything but trimers: evaluating the `repr` always fails.  `Disc` and `Sphere`
take no arguments, `Dimer` no `dimensions`, and `Molecule` no `_radii`. -/
theorem C177_others_refuted (sh : Shown) (rd : Reader) (m : Making)
    (hm : ∀ r d a s, m ≠ .trimer r d a s) :
    ¬ RoundTrip sh rd m ∧
    ((m.repr sh).args.all (fun p => rd.defined p.2) = true →
      evalCall rd (m.repr sh) = .error (.raised .typeError)) := by
  have hkey : ∀ (name : String) (cls : Cls) (dims : Arg) (parts : List String) (radii : Dict String Arg)
      (rigid : Bool) (scale : Arg), classNamed name.toList = some cls → "_radii".toList ∉ argNames cls →
      evalCall rd (attrsRepr sh name dims parts radii rigid scale) =
        if (attrsRepr sh name dims parts radii rigid scale).args.all (fun p => rd.defined p.2) = false then
          .error .nameError else .error (.raised .typeError) := by
    intro name cls dims parts radii rigid scale hc hn
    have hk : (attrsRepr sh name dims parts radii rigid scale).args.all
        (fun p => decide (p.1 ∈ argNames cls)) = false := by
      rw [Bool.eq_false_iff]
      intro h
      rw [List.all_eq_true] at h
      have := h ("_radii".toList, sh.radii radii) (by simp [attrsRepr])
      exact hn (by simpa using this)
    have hc' : classNamed (attrsRepr sh name dims parts radii rigid scale).name = some cls := hc
    unfold evalCall
    rw [hc']
    simp only [hk, if_true]
  have hall : evalCall rd (m.repr sh) = if (m.repr sh).args.all (fun p => rd.defined p.2) = false then
      .error .nameError else .error (.raised .typeError) := by
    cases m with
    | molecule => exact hkey _ .molecule _ _ _ _ _ rfl (by simp [argNames])
    | disc => exact hkey _ .disc _ _ _ _ _ rfl (by simp [argNames])
    | sphere => exact hkey _ .sphere _ _ _ _ _ rfl (by simp [argNames])
    | trimer r d a s => exact absurd rfl (hm r d a s)
    | dimer => exact hkey _ .dimer _ _ _ _ _ rfl (by simp [argNames])
  refine ⟨?_, fun h => by rw [hall, h]; rfl⟩
  rintro ⟨m', a, b, h, -⟩
  rw [hall] at h
  split at h <;> cases h

/-- A disc: the text can be read and the call is a TypeError. -/
example : evalCall strokeReader (Making.disc.repr strokes) = .error (.raised .typeError) :=
  (C177_others_refuted strokes strokeReader .disc (by simp)).2 (by
    simp [Making.repr, attrsRepr, strokeReader, strokes])

/-- **C177 is false** for trimers with a NaN: `nan` is not a name that Python knows. -/
theorem C177_nan_refuted (F : ℝ → Prop) (sh : Shown) (rd : Reader) (hf : FaithfulNumbers F sh rd)
    (r d a s : Arg)
    (h : r = .nan ∨ d = .nan ∨ a = .nan ∨ s = .nan) :
    evalCall rd ((Making.trimer r d a s).repr sh) = .error .nameError := by
  have hall : (trimerRepr sh r d a s).args.all (fun p => rd.defined p.2) = false := by
    rw [Bool.eq_false_iff]
    intro h'
    simp only [trimerRepr, List.all_cons, List.all_nil, Bool.and_true, Bool.and_eq_true] at h'
    rcases h with rfl | rfl | rfl | rfl <;> simp [hf.nan] at h'
  have hc : classNamed (trimerRepr sh r d a s).name = some .trimer := rfl
  simp only [Making.repr, evalCall, hc, hall, if_true]

example : evalCall strokeReader ((Making.trimer (.float 1) .nan (.int 120) (.int 1)).repr strokes) =
    .error .nameError := C177_nan_refuted twoFloats _ _ strokes_faithful _ _ _ _ (by simp)

/-- **C177 is false** in the other direction too: dimers of any two distances have the same text, and are
not equal when the distances differ. -/
theorem C177_dimer_refuted (sh : Shown) (r s : Arg) (x y : ℝ) (hn : r ≠ .nan) (ho : r ≠ .other) :
    ((Making.dimer r (.float x) s).repr sh).text = ((Making.dimer r (.float y) s).repr sh).text ∧
    ∃ a b, (Making.dimer r (.float x) s).mol = .ok a ∧ (Making.dimer r (.float y) s).mol = .ok b ∧
      (pyEq a b = .ok true ↔ x = y) := by
  refine ⟨rfl, _, _, rfl, rfl, ?_⟩
  cases r with
  | nan => exact absurd rfl hn
  | other => exact absurd rfl ho
  | int n => simp [pyEq, eqMethod, initMolecule, Cls.sub, Arg.attr, Attr.eq, andThen]
  | float z => simp [pyEq, eqMethod, initMolecule, Cls.sub, Arg.attr, Attr.eq, andThen]

/-- Dimers of distance 1 and 2. -/
example : ∃ a b, (Making.dimer (.float 1) (.float 1) (.int 1)).mol = .ok a ∧
    (Making.dimer (.float 1) (.float 2) (.int 1)).mol = .ok b ∧ pyEq a b ≠ .ok true := by
  obtain ⟨-, a, b, ha, hb, h⟩ := C177_dimer_refuted strokes (.float 1) (.int 1) 1 2 (by simp) (by simp)
  exact ⟨a, b, ha, hb, fun e => absurd (h.1 e) (by norm_num)⟩

end Verif.Molecule
