import Verif.Molecule.ReprSpec
import Verif.Molecule.Props
/-!
# Lemmas for C177
-/

namespace Verif.Molecule

open Verif.Motion (V3)

theorem Arg.Plain.isNumber {F : ℝ → Prop} {x : Arg} (hx : x.Plain F) : x.isNumber = true := by
  cases x <;> first | rfl | exact hx.elim

theorem Arg.Plain.attr_real {F : ℝ → Prop} {x : Arg} (hx : x.Plain F) : x.attr.real := by
  cases x with
  | int => simp [Arg.attr, Attr.real]
  | float => simp [Arg.attr, Attr.real]
  | nan => exact hx.elim
  | other => exact hx.elim

theorem trimer_made (r d a : Arg) (hr : r.isNumber = true) (hd : d.isNumber = true) (ha : a.isNumber = true) :
    ∃ m, trimer r d a = .ok m ∧ m.radius = r.attr ∧ m.distance = d.attr ∧ m.angle = a.attr := by
  unfold trimer
  rw [if_neg (by simp [hr]), if_neg (by simp [hd]), if_neg (by simp [ha])]
  exact ⟨_, rfl, rfl, rfl, rfl⟩

theorem evalCall_trimer (F : ℝ → Prop) (sh : Shown) (rd : Reader) (hf : FaithfulNumbers F sh rd)
    (r d a s : Arg)
    (hr : r.Plain F) (hd : d.Plain F) (ha : a.Plain F) (hs : s.Plain F) :
    evalCall rd ((Making.trimer r d a s).repr sh) = .ok (.trimer r d a s) := by
  have hall : (trimerRepr sh r d a s).args.all (fun p => rd.defined p.2) = true := by
    simp [trimerRepr, (hf.reads r hr).1, (hf.reads d hd).1, (hf.reads a ha).1, (hf.reads s hs).1]
  have hk : (trimerRepr sh r d a s).args.all (fun p => decide (p.1 ∈ argNames .trimer)) = true := by
    simp [trimerRepr, argNames]
  have e1 : (trimerRepr sh r d a s).number rd "radius" (.float 0.637556) = r := (hf.reads r hr).2
  have e2 : (trimerRepr sh r d a s).number rd "distance" (.float 1) = d := (hf.reads d hd).2
  have e3 : (trimerRepr sh r d a s).number rd "angle" (.int 120) = a := (hf.reads a ha).2
  have e4 : (trimerRepr sh r d a s).number rd "moment_inertia_scale" (.float 1) = s := (hf.reads s hs).2
  have hc : classNamed (trimerRepr sh r d a s).name = some .trimer := rfl
  have hm : (Making.trimer r d a s).mol = trimer r d a := rfl
  obtain ⟨m, ht, -⟩ := trimer_made r d a hr.isNumber hd.isNumber ha.isNumber
  simp only [Making.repr, evalCall, hc, hall, hk, e1, e2, e3, e4, hm, ht]
  rfl

theorem split_at {c : Char} : ∀ {u v x y : List Char}, c ∉ u → c ∉ v → u ++ c :: x = v ++ c :: y →
    u = v ∧ x = y
  | [], [], _, _, _, _, h => by simpa using h
  | [], b :: v, _, _, _, hv, h => by
    simp only [List.nil_append, List.cons_append, List.cons.injEq] at h
    exact absurd (h.1 ▸ List.mem_cons_self) hv
  | a :: u, [], _, _, hu, _, h => by
    simp only [List.nil_append, List.cons_append, List.cons.injEq] at h
    exact absurd (h.1 ▸ List.mem_cons_self) hu
  | a :: u, b :: v, _, _, hu, hv, h => by
    simp only [List.cons_append, List.cons.injEq] at h
    obtain ⟨h1, h2⟩ := split_at (fun h' => hu (List.mem_cons_of_mem _ h'))
      (fun h' => hv (List.mem_cons_of_mem _ h')) h.2
    exact ⟨by rw [h.1, h1], h2⟩

/-- For the examples: ints written in strokes, the floats 1 and 2 by a letter each. -/
noncomputable def strokes : Shown where
  number := fun x => match x with
    | .int n => (if 0 ≤ n then '+' else '-') :: List.replicate n.natAbs '1'
    | .float x => open Classical in if x = 1 then ['a'] else ['b']
    | .nan => ['n']
    | .other => ['o']
  particles := fun _ => ['p']
  radii := fun _ => ['r']

/-- The floats of the examples. -/
def twoFloats (x : ℝ) : Prop := x = 1 ∨ x = 2

open Classical in
/-- Whoever reads them. -/
noncomputable def strokeReader : Reader where
  defined := fun t => decide (t ≠ ['n'])
  number := fun t => if h : ∃ x : Arg, x.Plain twoFloats ∧ strokes.number x = t then h.choose else .other

theorem strokes_injective (x y : Arg) (hx : x.Plain twoFloats) (hy : y.Plain twoFloats)
    (h : strokes.number x = strokes.number y) : x = y := by
  have hne : (2 : ℝ) ≠ 1 := by norm_num
  cases x with
  | nan => exact hx.elim
  | other => exact hx.elim
  | int n =>
    cases y with
    | nan => exact hy.elim
    | other => exact hy.elim
    | int m =>
      simp only [strokes, List.cons.injEq] at h
      obtain ⟨h1, h2⟩ := h
      have h3 : n.natAbs = m.natAbs := by simpa using congrArg List.length h2
      congr 1
      split_ifs at h1 with a b b
      · omega
      · exact absurd h1 (by decide)
      · exact absurd h1 (by decide)
      · omega
    | float v =>
      simp only [strokes] at h
      rcases hy with rfl | rfl <;> split_ifs at h <;> simp at h
  | float u =>
    cases y with
    | nan => exact hy.elim
    | other => exact hy.elim
    | int m =>
      simp only [strokes] at h
      rcases hx with rfl | rfl <;> split_ifs at h <;> simp at h
    | float v =>
      rcases hx with rfl | rfl <;> rcases hy with rfl | rfl <;> simp [strokes, hne] at h ⊢

theorem strokes_faithful : FaithfulNumbers twoFloats strokes strokeReader where
  reads := by
    intro x hx
    constructor
    · cases x with
      | nan => exact hx.elim
      | other => exact hx.elim
      | int n =>
        simp only [strokeReader, strokes]
        split_ifs <;> simp
      | float u =>
        simp only [strokeReader, strokes]
        split_ifs <;> simp
    · have h : ∃ y : Arg, y.Plain twoFloats ∧ strokes.number y = strokes.number x := ⟨x, hx, rfl⟩
      simp only [strokeReader]
      rw [dif_pos h]
      exact strokes_injective _ _ h.choose_spec.1 hx h.choose_spec.2
  noComma := by
    intro x hx
    cases x with
    | nan => exact hx.elim
    | other => exact hx.elim
    | int n => simp only [strokes]; split_ifs <;> simp
    | float u => simp only [strokes]; split_ifs <;> simp
  noBracket := by
    intro x hx
    cases x with
    | nan => exact hx.elim
    | other => exact hx.elim
    | int n => simp only [strokes]; split_ifs <;> simp
    | float u => simp only [strokes]; split_ifs <;> simp
  nan := by simp [strokeReader, strokes]

/-- A key that is not there is added at the end. -/
theorem set_absent {ν : Type} (d : Dict String ν) (k : String) (v : ν) (h : Dict.get? d k = none) :
    Dict.set d k v = d ++ [(k, v)] := by
  induction d with
  | nil => rfl
  | cons p d ih =>
    obtain ⟨k', v'⟩ := p
    unfold Dict.get? at h
    unfold Dict.set
    split at h
    · cases h
    · next hk => rw [if_neg hk, ih h]; rfl

end Verif.Molecule
