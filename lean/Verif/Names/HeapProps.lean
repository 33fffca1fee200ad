import Verif.Names.HeapLemmas
import Verif.Names.ParamProps
/-!
# C170: parameters and the molecules they share
-/

namespace Verif.Names

/-- **C170, default.**  Parameters constructed without a molecule all have the same one. -/
theorem C170_default (kwargs : List (String × Val)) (hk : Dict.get? kwargs "molecule" = none) (m m' : Mem)
    (h : hexec (.construct kwargs) m = (m', none)) : m'.molOf m.objs.length = some 0 := by
  rw [hexec] at h
  split at h
  · rename_i d hd
    have hget : Dict.get? d "molecule" = some (.obj 0) := by
      obtain ⟨r, h1, h2⟩ := C108_construct (.obj 0) .none kwargs d hd ("molecule", .obj 0) (by simp [fields])
      have hr : r = .obj 0 := by
        unfold Reads at h2
        rw [if_neg (by decide), hk] at h2
        exact h2
      unfold getAttr at h1
      rw [show stored "molecule" = "molecule" by decide] at h1
      split at h1
      · exact absurd h1 (by simp)
      · rename_i v hv
        rw [if_neg (by simp)] at h1
        rw [hv, Except.ok.inj h1, hr]
    obtain rfl : _ = m' := (Prod.mk.inj h).1
    unfold Mem.molOf
    simp [hget]
  · exact absurd (Prod.mk.inj h).2 (by simp)

/-- Parameters with the default molecule and a temperature. -/
def plain (t : ℚ) : HStmt := .construct [("temperature", .num t)]

/-- The memory after the class is defined: there is the default molecule. -/
def start : Mem := ⟨[[("angle", .num 120)]], []⟩

example : (hexec (plain 1) start).2 = none := rfl

/-- **C170, what is changed.**  Setting an attribute of the molecule of some parameters is seen in the
molecule of exactly those parameters that have the same one. -/
theorem C170_change (m : Mem) (i a : Nat) (x : Attrs) (k : String) (v : Val) (hi : m.molOf i = some a)
    (ha : m.mols[a]? = some x) (j : Nat) :
    (hexec (.change i k v) m).2 = none ∧
    ((hexec (.change i k v) m).1.see j).1 = (m.see j).1 ∧
    (m.molOf j = some a → ((hexec (.change i k v) m).1.see j).2 = some (Dict.set x k v)) ∧
    (m.molOf j ≠ some a → ((hexec (.change i k v) m).1.see j).2 = (m.see j).2) := by
  have he : hexec (.change i k v) m = ({ m with mols := m.mols.set a (Dict.set x k v) }, none) := by
    simp only [hexec, hi, ha]
  have hlt : a < m.mols.length := (List.getElem?_eq_some_iff.1 ha).1
  have hmol : Mem.molOf { m with mols := m.mols.set a (Dict.set x k v) } j = m.molOf j := rfl
  rw [he]
  refine ⟨rfl, rfl, fun hj => ?_, fun hj => ?_⟩
  · simp only [Mem.see, hmol, hj, Option.bind_some]
    exact List.getElem?_set_self hlt
  · simp only [Mem.see, hmol]
    cases hb : m.molOf j with
    | none => rfl
    | some b =>
      have : a ≠ b := fun h => hj (by rw [hb, h])
      simp only [Option.bind_some]
      exact List.getElem?_set_ne this

/-- Three parameters, of which the first two have the default molecule. -/
def three : Mem :=
  (hexec (.seq (.seq (plain 1) (plain 2)) (.seq (plain 3) (.newMol 2 [("angle", .num 90)]))) start).1

example : three.molOf 0 = some 0 ∧ three.molOf 1 = some 0 ∧ three.molOf 2 = some 1 ∧
    three.mols[0]? = some [("angle", .num 120)] := by
  refine ⟨by decide, by decide, by decide, rfl⟩

/-- **C170 (assignments).**  The full property is `Apart`: a program that has nothing to do with some
parameters changes nothing one sees of them.  It holds for programs that only assign attributes of
parameters.  Missing: changes of molecules, see `C170_refuted` and `C170_separate_partial`. -/
theorem C170_assigns_partial (s : HStmt) (m : Mem) (j : Nat) (hj : j < m.objs.length) (hl : s.Leaves j)
    (hs : s.OnlyAssigns) (hv : ∀ a, m.molOf j = some a → a < m.mols.length) :
    (hexec s m).1.see j = m.see j := by
  have h1 := (hexec_objs j s m hj hl).1
  have hmol : (hexec s m).1.molOf j = m.molOf j := by unfold Mem.molOf; rw [h1]
  simp only [Mem.see, h1, hmol]
  cases ha : m.molOf j with
  | none => rfl
  | some a =>
    have hlt := hv a ha
    simp only [Option.bind_some]
    rw [hexec_mols a m.mols[a] s m hs (List.getElem?_eq_getElem hlt), List.getElem?_eq_getElem hlt]

/-- **C170 (own molecule).**  It holds for every program when no other parameters refer to the molecule of
these, and the program does not bring it in.  Missing: shared molecules, see `C170_refuted`. -/
theorem C170_separate_partial (s : HStmt) (m : Mem) (j a : Nat) (hj : j < m.objs.length) (hl : s.Leaves j)
    (ha : m.molOf j = some a) (hlt : a < m.mols.length) (hs : s.NotOf a)
    (halone : ∀ i d, i ≠ j → m.objs[i]? = some d → ∀ p ∈ d, p.2 ≠ .obj a) :
    (hexec s m).1.see j = m.see j := by
  have h1 := (hexec_objs j s m hj hl).1
  have hmol : (hexec s m).1.molOf j = m.molOf j := by unfold Mem.molOf; rw [h1]
  have h2 := (hexec_alone a j s m hl hs halone hlt).1
  simp only [Mem.see, h1, hmol, ha, Option.bind_some, h2]

/-- A program on the first parameters: a block in which the molecule is changed, a new molecule and a change of
that. -/
def busy : HStmt :=
  .seq (.context 0 [("temperature", .num 5)] (.seq (.change 0 "angle" (.num 60)) (.assign 0 "x" (.num 1))))
    (.seq (.newMol 0 []) (.attempt (.change 0 "angle" (.num 30)) (.raise .valueError)))

/-- The hypotheses of `C170_separate_partial` for the third parameters, with what the program does to the second,
which share the molecule. -/
example : busy.Leaves 2 ∧ three.molOf 2 = some 1 ∧ busy.NotOf 1 ∧
    (∀ i d, i ≠ 2 → three.objs[i]? = some d → ∀ p ∈ d, p.2 ≠ .obj 1) ∧
    (hexec busy three).2 = none ∧ ((hexec busy three).1.see 1).2 = some [("angle", .num 60)] := by
  refine ⟨?_, by decide, ?_, ?_, by decide, by decide⟩
  · simp [busy, HStmt.Leaves]
  · simp [busy, HStmt.NotOf]
  · intro i d hi hd
    match i with
    | 0 => obtain rfl := Option.some.inj hd; decide
    | 1 => obtain rfl := Option.some.inj hd; decide
    | 2 => exact absurd rfl hi
    | n + 3 =>
      have h3 : three.objs.length = 3 := by decide
      rw [List.getElem?_eq_none (by omega)] at hd
      exact absurd hd (by simp)

/-- The hypotheses of `C170_assigns_partial`. -/
example : (HStmt.context 0 [("temperature", .num 5)] (.newMol 0 [])).Leaves 1 ∧
    (HStmt.context 0 [("temperature", .num 5)] (.newMol 0 [])).OnlyAssigns := by
  simp [HStmt.Leaves, HStmt.OnlyAssigns]

/-- **C170 is refuted.**  Two parameters with the default molecule: changing the molecule of the one changes
that of the other. -/
theorem C170_refuted : ¬ Apart := by
  intro h
  have h1 := h (.change 0 "angle" (.num 60)) three 1 (by decide) (by simp [HStmt.Leaves])
  exact absurd (congrArg Prod.snd h1) (by decide)

/-- **C170 (`temp_context`).**  The full property is `PutBack`: after the block one sees what one saw before.
For a block that only assigns attributes of parameters it does.  Missing: blocks that change molecules, see
`C170_context_refuted`. -/
theorem C170_context_partial (m m' : Mem) (i : Nat) (d : Attrs) (kwargs : List (String × Val))
    (body : HStmt) (hd : m.objs[i]? = some d) (hn : (d.map Prod.fst).Nodup)
    (h : hexec (.context i kwargs body) m = (m', none)) (hb : body.OnlyAssigns) :
    (∀ k v, Dict.get? d k = some v → ((m'.objs[i]?).bind (fun d' => Dict.get? d' k)) = some v) ∧
      ∀ a x, m.molOf i = some a → m.mols[a]? = some x → (m'.see i).2 = some x := by
  rw [hexec, hd] at h
  dsimp only at h
  split at h
  · exact absurd (Prod.mk.inj h).2 (by simp)
  · rename_i d1 h1
    have hlen : i < m.objs.length := (List.getElem?_eq_some_iff.1 hd).1
    have hmols := fun a x hx =>
      hexec_mols a x body { m with objs := m.objs.set i d1 } hb hx
    have hgrow : ∀ (s : HStmt) (m : Mem), m.objs.length ≤ (hexec s m).1.objs.length := by
      intro s m
      exact hexec_length s m
    have hl2 := hgrow body { m with objs := m.objs.set i d1 }
    split at h
    · exact absurd (Prod.mk.inj h).2 (by simp)
    · rename_i m2 hm
      rw [hm] at hmols hl2
      obtain rfl : _ = m' := (Prod.mk.inj h).1
      rw [List.length_set] at hl2
      have hi2 : i < m2.objs.length := lt_of_lt_of_le hlen hl2
      have hobj : (m2.objs.modify i (fun d2 => update d2 d))[i]? = some (update m2.objs[i] d) := by
        rw [List.getElem?_modify, List.getElem?_eq_getElem hi2]
        simp
      have hback : ∀ k v, Dict.get? d k = some v →
          (((m2.objs.modify i (fun d2 => update d2 d))[i]?).bind (fun d' => Dict.get? d' k)) = some v := by
        intro k v hk
        rw [hobj, Option.bind_some, get?_update d _ k hn, hk]
      refine ⟨hback, fun a x ha hx => ?_⟩
      have hmolk : Dict.get? d "molecule" = some (.obj a) := by
        unfold Mem.molOf at ha
        rw [hd, Option.bind_some] at ha
        split at ha
        · rename_i b hb'
          obtain rfl := Option.some.inj ha
          exact hb'
        · exact absurd ha (by simp)
      have h3 := hback _ _ hmolk
      simp only [Mem.see, Mem.molOf]
      rw [h3]
      exact hmols a x hx

example : (hexec (.context 0 [("temperature", .num 5)] (.seq (.newMol 0 []) (.assign 1 "pressure" (.num 1))))
    three).2 = none := by decide

/-- **C170 is refuted for `temp_context`.**  What the block does to the molecule stays. -/
theorem C170_context_refuted : ¬ PutBack := by
  intro h
  have h1 := (h three _ 0 _ [("temperature", .num 5)] (.change 0 "angle" (.num 60)) rfl (by decide) rfl).2 0
    [("angle", .num 120)] (by decide) rfl
  exact absurd h1 (by decide)

end Verif.Names
