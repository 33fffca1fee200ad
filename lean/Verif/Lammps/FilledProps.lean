import Verif.Lammps.FilledLemmas
import Verif.Lammps.Props
import Mathlib.Data.Fintype.Card
import Mathlib.Data.Fintype.Basic
import Mathlib.Data.Fintype.EquivFin
import Mathlib.Data.List.Nodup
/-!
# Exactly when a frame is complete, C75
-/

namespace Verif.Lammps

open Verif.Text

variable {F : Type}

/-- The row of words has a word in column `j`, and the id in its column `idCol` is that of atom `i`
(counted from 0) of `n`, either counted from 1 or, as an index from the end, lower by `n`. -/
def RowFills (idCol n : Nat) (row : List (List Char)) (i j : Nat) : Prop :=
  j < row.length ∧ ∃ w id, row[idCol]? = some w ∧ Numeral w id ∧ (id = i + 1 ∨ id = i + 1 - n)

theorem writes_iff (hs : List (List Char)) (idCol n : Nat) (row : List (List Char)) (h : List Char)
    (i : Nat) (hi : i < n) :
    Writes hs idCol n row h i ↔ ∃ j, hs[j]? = some h ∧ RowFills idCol n row i j := by
  unfold Writes RowFills
  constructor
  · rintro ⟨⟨j, h1, h2⟩, w, id, h3, h4, h5⟩
    refine ⟨j, h1, h2, w, id, h3, (C158_int w id).1 h4, ?_⟩
    have := ((npIndex_some ..).1 h5).2
    omega
  · rintro ⟨j, h1, h2, w, id, h3, h4, h5⟩
    refine ⟨⟨j, h1, h2⟩, w, id, h3, (C158_int w id).2 h4, ?_⟩
    rw [npIndex_some]
    omega

/-- **C75, the exact condition.**  When the atoms section of a frame is read, every entry of every
column was read from the file iff for each column and each atom some line of the section has a word
in that column and the id of that atom. -/
theorem C75_exactly (float : List Char → Option F) (t : Int) (n : Nat) (box : List F)
    (src rest : List Char) (f : LFrame F) (idCol : Nat)
    (hid : idColumn ((splitOn ' ' (strip (readline src).1)).drop 2) = some idCol)
    (h : readAtoms float t n box src = .ok (f, rest)) :
    (∀ k c, Dict.get? f.cols k = some c → none ∉ c) ↔
    ∀ k ∈ (splitOn ' ' (strip (readline src).1)).drop 2, ∀ i < n,
      ∃ row ∈ rowsOf n (readline src).2, ∃ j,
        ((splitOn ' ' (strip (readline src).1)).drop 2)[j]? = some k ∧ RowFills idCol n row i j := by
  unfold readAtoms at h
  simp only [hid] at h
  split at h
  · cases h
  rw [if_neg (by omega)] at h
  rw [Int.toNat_natCast] at h
  split at h
  · cases h
  rename_i cols rest' hr
  obtain ⟨rfl, rfl⟩ := Prod.mk.inj (Except.ok.inj h)
  generalize hhs : (splitOn ' ' (strip (readline src).1)).drop 2 = hs at *
  have h0 := empty_shaped (F := F) n hs [] []
    ⟨fun p hp => (by cases hp), fun x hx => (by cases hx)⟩
  rw [List.append_nil] at h0
  obtain ⟨h1, _⟩ := readRows_shaped float _ _ _ _ _ _ _ _ h0 hr
  have hb := fun k i => readRows_blank float hs idCol n k i _ _ _ _ _ hr
  simp only [foldl_blank] at hb
  constructor
  · intro hall k hk i hi
    obtain ⟨c, hc⟩ := h1.2 k hk
    have hlen : c.length = n := h1.1 _ (get?_mem' hc)
    have hnb : ¬ Unwritten cols k i := by
      unfold Unwritten
      rw [hc, Option.getD_some]
      intro hbl
      exact hall k c hc (List.mem_of_getElem? hbl)
    rw [hb] at hnb
    have : ∃ row ∈ rowsOf n (readline src).2, Writes hs idCol n row k i := by
      by_contra hcon
      exact hnb ⟨⟨hk, hi⟩, hcon⟩
    obtain ⟨row, h2, h3⟩ := this
    exact ⟨row, h2, (writes_iff hs idCol n row k i hi).1 h3⟩
  · intro hall k c hc hm
    obtain ⟨i, hi⟩ := List.mem_iff_getElem?.1 hm
    have hbl : Unwritten cols k i := by
      unfold Unwritten
      rw [hc]
      exact hi
    obtain ⟨⟨hk, hin⟩, hno⟩ := (hb k i).1 hbl
    obtain ⟨row, h2, h3⟩ := hall k hk i hin
    exact hno ⟨row, h2, (writes_iff hs idCol n row k i hin).2 h3⟩

/-- **C75, no room for repetitions.**  When every entry was read from the file, no two lines of the
section have the id of the same atom, and no line is short of a column. -/
theorem C75_distinct (float : List Char → Option F) (t : Int) (n : Nat) (box : List F)
    (src rest : List Char) (f : LFrame F) (idCol : Nat)
    (hid : idColumn ((splitOn ' ' (strip (readline src).1)).drop 2) = some idCol)
    (hnd : ((splitOn ' ' (strip (readline src).1)).drop 2).Nodup)
    (h : readAtoms float t n box src = .ok (f, rest))
    (hall : ∀ k c, Dict.get? f.cols k = some c → none ∉ c) :
    (∀ (a b i : Nat) (ra rb : List (List Char)), i < n → (rowsOf n (readline src).2)[a]? = some ra →
      (rowsOf n (readline src).2)[b]? = some rb → RowFills idCol n ra i 0 → RowFills idCol n rb i 0 →
      a = b) ∧
    ∀ row ∈ rowsOf n (readline src).2,
      ((splitOn ' ' (strip (readline src).1)).drop 2).length ≤ row.length := by
  have hx := (C75_exactly float t n box src rest f idCol hid h).1 hall
  generalize hhs : (splitOn ' ' (strip (readline src).1)).drop 2 = hs at *
  generalize hrows : rowsOf n (readline src).2 = rows at *
  have hlen : rows.length = n := by rw [← hrows, rowsOf_length]
  -- each line is for one atom at most
  have huniq : ∀ (row : List (List Char)) (i i' j j' : Nat), i < n → i' < n →
      RowFills idCol n row i j → RowFills idCol n row i' j' → i = i' := by
    rintro row i i' j j' hi hi' ⟨_, w, id, h1, h2, h3⟩ ⟨_, w', id', h1', h2', h3'⟩
    rw [h1] at h1'
    obtain rfl := Option.some.inj h1'
    have := C158_unique w id id' h2 h2'
    omega
  have hmain : ∀ k ∈ hs, ∀ (a : Nat) (ra : List (List Char)), rows[a]? = some ra →
      ∃ i, i < n ∧ (∃ j, hs[j]? = some k ∧ RowFills idCol n ra i j) ∧
        ∀ b rb, rows[b]? = some rb → (∃ j, RowFills idCol n rb i j) → b = a := by
    intro k hk
    have hch : ∀ i : Fin n, ∃ a : Fin n, ∃ ra j, rows[a.val]? = some ra ∧ hs[j]? = some k ∧
        RowFills idCol n ra i j := by
      intro i
      obtain ⟨row, h1, j, h2, h3⟩ := hx k hk i i.2
      obtain ⟨a, ha⟩ := List.mem_iff_getElem?.1 h1
      have := (List.getElem?_eq_some_iff.1 ha).1
      exact ⟨⟨a, by omega⟩, row, j, ha, h2, h3⟩
    choose g hg using hch
    have hinj : Function.Injective g := by
      intro i i' e
      obtain ⟨ra, j, h1, _, h3⟩ := hg i
      obtain ⟨ra', j', h1', _, h3'⟩ := hg i'
      rw [e, h1'] at h1
      obtain rfl := Option.some.inj h1
      exact Fin.ext (huniq _ _ _ _ _ i.2 i'.2 h3 h3')
    have hsurj : Function.Surjective g := Finite.surjective_of_injective hinj
    intro a ra ha
    have han : a < n := by
      have := (List.getElem?_eq_some_iff.1 ha).1
      omega
    obtain ⟨i, hi⟩ := hsurj ⟨a, han⟩
    obtain ⟨ra', j, h1, h2, h3⟩ := hg i
    rw [hi] at h1
    simp only [ha, Option.some.injEq] at h1
    subst h1
    refine ⟨i, i.2, ⟨j, h2, h3⟩, ?_⟩
    rintro b rb hb ⟨j', h4⟩
    have hbn : b < n := by
      have := (List.getElem?_eq_some_iff.1 hb).1
      omega
    obtain ⟨i', hi'⟩ := hsurj ⟨b, hbn⟩
    obtain ⟨rb', j'', h5, _, h7⟩ := hg i'
    rw [hi'] at h5
    simp only [hb, Option.some.injEq] at h5
    subst h5
    have : i.val = i'.val := huniq _ _ _ _ _ i.2 i'.2 h4 h7
    have hii : i = i' := Fin.ext this
    rw [hii, hi'] at hi
    exact congrArg Fin.val hi
  have hidmem : "id".toList ∈ hs := by
    unfold idColumn at hid
    rw [List.findIdx?_eq_some_iff_getElem] at hid
    obtain ⟨h1, h2, _⟩ := hid
    rw [← of_decide_eq_true h2]
    exact List.getElem_mem h1
  constructor
  · intro a b i ra rb hi ha hb fa fb
    obtain ⟨i', hi', ⟨j, _, h2⟩, h3⟩ := hmain _ hidmem a ra ha
    have := huniq ra i i' 0 j hi hi' fa h2
    subst this
    exact (h3 b rb hb ⟨0, fb⟩).symm
  · intro row hrow
    obtain ⟨a, ha⟩ := List.mem_iff_getElem?.1 hrow
    by_contra hcon
    rw [not_le] at hcon
    obtain ⟨i, hi, ⟨j, h1, h2⟩, _⟩ := hmain hs[row.length] (List.getElem_mem hcon) a row ha
    have hj := (List.getElem?_eq_some_iff.1 h1)
    obtain ⟨hjl, hje⟩ := hj
    have := (List.Nodup.getElem_inj_iff hnd).1 hje
    have := h2.1
    omega

/-- A section whose second line is short: the entry of the missing word was never written. -/
def shortText : List Char := "ITEM: ATOMS id x\n1 7\n2\n".toList

example : readAtoms pyInt 0 (2 : Nat) [] shortText =
      .ok (⟨0, [], [("id".toList, [some 1, some 2]), ("x".toList, [some 7, none])]⟩, []) ∧
    ¬ ∀ i < 2, ∃ row ∈ rowsOf 2 (readline shortText).2, ∃ j,
      ((splitOn ' ' (strip (readline shortText).1)).drop 2)[j]? = some "x".toList ∧
        RowFills 0 2 row i j := by
  have hr : readAtoms pyInt 0 (2 : Nat) [] shortText =
      .ok (⟨0, [], [("id".toList, [some 1, some 2]), ("x".toList, [some 7, none])]⟩, []) := by decide
  refine ⟨hr, ?_⟩
  intro hcon
  have hid : idColumn ((splitOn ' ' (strip (readline shortText).1)).drop 2) = some 0 := by decide
  have hs : (splitOn ' ' (strip (readline shortText).1)).drop 2 = ["id".toList, "x".toList] := by decide
  have hlens := rowsOf_length 2 (readline shortText).2
  obtain ⟨row, h1, j, h2, h3, w, id, h4, h5, h6⟩ := hcon 1 (by omega)
  have hrows : rowsOf 2 (readline shortText).2 = [["1".toList, "7\n".toList], ["2\n".toList]] := by decide
  rw [hrows] at h1
  rw [hs] at h2
  have hj : j = 1 := by
    match j with
    | 0 => exact absurd h2 (by decide)
    | 1 => rfl
    | j + 2 => simp at h2
  subst hj
  simp only [List.mem_cons, List.not_mem_nil, or_false] at h1
  rcases h1 with rfl | rfl
  · have h7 := (C158_int w id).2 h5
    have hw : w = "1".toList := (Option.some.inj h4).symm
    subst hw
    have : pyInt "1".toList = some 1 := by decide
    rw [this] at h7
    have := Option.some.inj h7
    omega
  · simp at h3

end Verif.Lammps
