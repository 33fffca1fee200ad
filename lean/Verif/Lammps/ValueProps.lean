import Verif.Lammps.ValueLemmas
import Verif.Lammps.DictModel
/-!
# Property C180: what the columns of a lammps frame contain, for any headings and ids
-/

namespace Verif.Lammps

open Verif.Text

variable {F : Type}

/-- The word of the file that counts for atom `i` in the column `h`: of the lines with the id of the atom and a
word under that heading the last one, and in it of the words under that heading the last one. -/
def Counts (hs : List (List Char)) (idCol n : Nat) (rows : List (List (List Char))) (h : List Char) (i : Nat)
    (w : List Char) : Prop :=
  ∃ (a : Nat) (row : List (List Char)) (j : Nat), rows[a]? = some row ∧ hs[j]? = some h ∧ row[j]? = some w ∧
    RowFills idCol n row i j ∧
    (∀ j', j < j' → hs[j']? = some h → row.length ≤ j') ∧
    ∀ (a' : Nat) (row' : List (List Char)) (j' : Nat), a < a' → rows[a']? = some row' → hs[j']? = some h →
      ¬ RowFills idCol n row' i j'

/-- **C180, the values.**  In every frame that is read, whatever the headings and the ids are, the entry of an atom in a
column is the number of the word that counts for it. -/
theorem C180_value (float : List Char → Option F) (t : Int) (n : Nat) (box : List F)
    (src rest : List Char) (f : LFrame F) (idCol : Nat)
    (hid : idColumn ((splitOn ' ' (strip (readline src).1)).drop 2) = some idCol)
    (h : readAtoms float t n box src = .ok (f, rest)) (k : List Char) (i : Nat) (hi : i < n) (w : List Char)
    (hw : Counts ((splitOn ' ' (strip (readline src).1)).drop 2) idCol n (rowsOf n (readline src).2) k i w) :
    ∃ c v, Dict.get? f.cols k = some c ∧ c[i]? = some (some v) ∧ float w = some v := by
  unfold readAtoms at h
  simp only [hid] at h
  split at h
  · cases h
  rw [if_neg (by omega)] at h
  rw [Int.toNat_natCast] at h
  split at h
  · cases h
  rename_i cols rest' hr
  obtain ⟨rfl, rfl⟩ := Prod.mk.inj (Except.ok.inj h)
  generalize (splitOn ' ' (strip (readline src).1)).drop 2 = hs at *
  obtain ⟨a, row, j, h1, h2, h3, h4, h5, h6⟩ := hw
  have hmem : k ∈ hs := List.mem_of_getElem? h2
  have hW : Writes hs idCol n row k i := (writes_iff hs idCol n row k i hi).2 ⟨j, h2, h4⟩
  obtain ⟨ha, rfl⟩ := List.getElem?_eq_some_iff.1 h1
  have hrows : rowsOf n (readline src).2 = (rowsOf n (readline src).2).take a ++
      (rowsOf n (readline src).2)[a] :: (rowsOf n (readline src).2).drop (a + 1) := by
    rw [← List.drop_eq_getElem_cons ha, List.take_append_drop]
  generalize hrow : (rowsOf n (readline src).2)[a] = row at *
  have hjz : (hs.zip row)[j]? = some (k, w) := List.getElem?_zip_eq_some.2 ⟨h2, h3⟩
  obtain ⟨hjl, hje⟩ := List.getElem?_eq_some_iff.1 hjz
  have hzip : hs.zip row = (hs.zip row).take j ++ (k, w) :: (hs.zip row).drop (j + 1) := by
    rw [← hje, ← List.drop_eq_getElem_cons hjl, List.take_append_drop]
  have hq : k ∉ ((hs.zip row).drop (j + 1)).map Prod.fst := by
    intro hk
    obtain ⟨⟨k', w'⟩, hp, rfl⟩ := List.mem_map.1 hk
    obtain ⟨l, hl⟩ := List.mem_iff_getElem?.1 hp
    rw [List.getElem?_drop, List.getElem?_zip_eq_some] at hl
    have := h5 (j + 1 + l) (by omega) hl.1
    have := (List.getElem?_eq_some_iff.1 hl.2).1
    omega
  have hpost : ∀ r ∈ (rowsOf n (readline src).2).drop (a + 1), ¬ Writes hs idCol n r k i := by
    intro r hrm hwr
    obtain ⟨l, hl⟩ := List.mem_iff_getElem?.1 hrm
    rw [List.getElem?_drop] at hl
    obtain ⟨j', g1, g2⟩ := (writes_iff hs idCol n r k i hi).1 hwr
    exact h6 (a + 1 + l) r j' (by omega) hl g1 g2
  have hcell : (cell (hs.foldl (fun d h => Dict.set d h (List.replicate n (none : Option F))) []) k i).isSome := by
    unfold cell
    rw [foldl_get, if_pos hmem, Option.getD_some, List.getElem?_replicate_of_lt hi]
    rfl
  obtain ⟨v, hv, hc⟩ := readRows_last float hs idCol n k w i row _ _ hW hzip hq _ _ _ _ _ _ _ hr hrows hpost hcell
  unfold cell at hc
  cases hg : Dict.get? cols k with
  | none => simp [hg] at hc
  | some c =>
    rw [hg, Option.getD_some] at hc
    exact ⟨c, v, rfl, hc, hv⟩

/-- Two columns with the heading `x` and two lines for atom 1: the last `x` of the last line counts. -/
example : parseLammps pyInt
    (["ITEM: TIMESTEP", "0", "ITEM: NUMBER OF ATOMS", "2", "ITEM: BOX BOUNDS", "0 9", "0 9", "0 9",
      "ITEM: ATOMS id x x", "1 5 6", "1 7 8"].flatMap (fun l => l.toList ++ ['\n'])) =
    ([⟨0, [9, 9, 9], [("id".toList, [some 1, none]), ("x".toList, [some 8, none])]⟩], none) := by decide

/-- The word that counts there. -/
example : Counts ["id".toList, "x".toList, "x".toList] 0 2
    [["1".toList, "5".toList, "6".toList], ["1".toList, "7".toList, "8".toList]] "x".toList 0 "8".toList := by
  refine ⟨1, ["1".toList, "7".toList, "8".toList], 2, rfl, rfl, rfl, ⟨by decide, "1".toList, 1, rfl, ?_, by decide⟩,
    ?_, ?_⟩
  · exact (C158_int _ _).1 (by decide)
  · intro j' hj hh
    simp only [List.length_cons, List.length_nil]
    omega
  · intro a' row' j' ha hr
    have := (List.getElem?_eq_some_iff.1 hr).1
    simp only [List.length_cons, List.length_nil] at this
    omega

/-! ## the dictionary -/

theorem get?_mapped (f : LFrame F) (k : List Char) :
    Dict.get? (f.cols.map (fun p => (p.1, Item.column p.2))) k = (Dict.get? f.cols k).map .column := by
  induction f.cols with
  | nil => rfl
  | cons p d ih =>
    obtain ⟨a, c⟩ := p
    simp only [List.map_cons, Dict.get?]
    split
    · rfl
    · exact ih

/-- **C180.**  The box and the timestep of the dictionary are those of the file, whatever the columns are called. -/
theorem C180_kept (f : LFrame F) : Dict.get? (frameDict f) "box".toList = some (.box f.box) ∧
    Dict.get? (frameDict f) "timestep".toList = some (.step f.timestep) := by
  unfold frameDict
  constructor
  · rw [Dict.get?_set, if_neg (by decide), Dict.get?_set, if_pos rfl]
  · rw [Dict.get?_set, if_pos rfl]

/-- The full property: the dictionary has each column of the file under its heading. -/
def HasColumns (f : LFrame F) : Prop :=
  ∀ k c, Dict.get? f.cols k = some c → Dict.get? (frameDict f) k = some (.column c)

/-- **C180, exactly.**  Each column is in the dictionary iff none is called `box` or `timestep`. -/
theorem C180_exactly (f : LFrame F) :
    HasColumns f ↔ Dict.get? f.cols "box".toList = none ∧ Dict.get? f.cols "timestep".toList = none := by
  have key : ∀ k, k ≠ "box".toList → k ≠ "timestep".toList →
      Dict.get? (frameDict f) k = (Dict.get? f.cols k).map .column := by
    intro k h1 h2
    unfold frameDict
    rw [Dict.get?_set, if_neg (Ne.symm h2), Dict.get?_set, if_neg (Ne.symm h1), get?_mapped]
  constructor
  · intro h
    constructor
    · cases hb : Dict.get? f.cols "box".toList with
      | none => rfl
      | some c =>
        have := h _ _ hb
        rw [(C180_kept f).1] at this
        cases this
    · cases hb : Dict.get? f.cols "timestep".toList with
      | none => rfl
      | some c =>
        have := h _ _ hb
        rw [(C180_kept f).2] at this
        cases this
  · rintro ⟨hb, ht⟩ k c hk
    have h1 : k ≠ "box".toList := by rintro rfl; rw [hb] at hk; cases hk
    have h2 : k ≠ "timestep".toList := by rintro rfl; rw [ht] at hk; cases hk
    rw [key k h1 h2, hk]
    rfl

/-- **C180, proved part.**  The full statement is `HasColumns`; a column of any other name is in the dictionary.
Missing: columns called `box` or `timestep` (`C180_refuted`). -/
theorem C180_columns_partial (f : LFrame F) (k : List Char) (h1 : k ≠ "box".toList) (h2 : k ≠ "timestep".toList) :
    Dict.get? (frameDict f) k = (Dict.get? f.cols k).map .column := by
  unfold frameDict
  rw [Dict.get?_set, if_neg (Ne.symm h2), Dict.get?_set, if_neg (Ne.symm h1), get?_mapped]

example : ("x".toList ≠ "box".toList) ∧ "x".toList ≠ "timestep".toList := by decide

/-- **C180, refuted.**  A file with a column `box`, say the cell an atom was in: the column is not in the dictionary. -/
theorem C180_refuted : ∃ f : LFrame Int, parseLammps pyInt
    (["ITEM: TIMESTEP", "7", "ITEM: NUMBER OF ATOMS", "1", "ITEM: BOX BOUNDS", "0 9", "0 9", "0 9",
      "ITEM: ATOMS id box", "1 4"].flatMap (fun l => l.toList ++ ['\n'])) = ([f], none) ∧
    Dict.get? f.cols "box".toList = some [some 4] ∧
    Dict.get? (frameDict f) "box".toList = some (.box [9, 9, 9]) ∧ ¬ HasColumns f := by
  refine ⟨⟨7, [9, 9, 9], [("id".toList, [some 1]), ("box".toList, [some 4])]⟩, by decide, by decide, by decide, ?_⟩
  intro h
  have := ((C180_exactly _).1 h).1
  revert this
  decide

/-- **C180, the frame.**  What `LammpsFrame` gives of the dictionary is what it gives of the columns, the box and the
timestep kept apart, as in the other theorems. -/
theorem C180_frame (junk : ℝ) (f : LFrame ℝ) : dictFrame junk (frameDict f) = Frame.lammpsFrame junk f := by
  have hcol : ∀ name : String, name.toList ≠ "box".toList → name.toList ≠ "timestep".toList →
      itemColumn junk (frameDict f) name = Frame.column junk f name := by
    intro name h1 h2
    unfold itemColumn Frame.column
    rw [C180_columns_partial f _ h1 h2]
    cases Dict.get? f.cols name.toList <;> rfl
  have hbox : itemColumn junk (frameDict f) "box" = .ok f.box := by
    unfold itemColumn
    rw [(C180_kept f).1]
  have hstep : itemStep (frameDict f) = .ok f.timestep := by
    unfold itemStep
    rw [(C180_kept f).2]
  unfold dictFrame Frame.lammpsFrame Frame.lammpsView
  rw [hcol "x" (by decide) (by decide), hcol "y" (by decide) (by decide), hcol "z" (by decide) (by decide), hbox,
    hstep]
  rfl

end Verif.Lammps
