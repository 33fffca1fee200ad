import Verif.Lammps.FilledProps
/-!
# Exactly which sections of atoms are read, C76
-/

namespace Verif.Lammps

open Verif.Text

variable {F : Type}

/-- The id in the column `idCol` of the row of words is a number that is accepted for `n` atoms: 1 … n,
or one of 0, -1, … -(n-1), which stand for atoms counted from the end. -/
def IdAccepted (idCol n : Nat) (row : List (List Char)) : Prop :=
  ∃ w id, row[idCol]? = some w ∧ Numeral w id ∧ -(n : Int) < id ∧ id ≤ n

/-- Every word of the row that stands below one of the first `m` headings is a number. -/
def RowNumeric (float : List Char → Option F) (m : Nat) (row : List (List Char)) : Prop :=
  ∀ j w, j < m → row[j]? = some w → float w ≠ none

theorem writeRow_ok (float : List Char → Option F) (n : Nat) (k : Int) :
    ∀ (zs : List (List Char × List Char)) (cols : Dict (List Char) (List (Option F))),
      (∃ out, writeRow float n k cols zs = .ok out) ↔
        (∀ p ∈ zs, float p.2 ≠ none) ∧ (zs = [] ∨ npIndex n k ≠ none)
  | [], cols => by simp [writeRow]
  | (h, w) :: zs, cols => by
    rw [writeRow]
    cases hw : float w with
    | none => simp [hw]
    | some v =>
      simp only
      cases hk : npIndex n k with
      | none => simp
      | some i =>
        simp only
        rw [writeRow_ok float n k zs, hk]
        simp [hw]

theorem npIndex_ne_none (n : Nat) (id : Int) :
    npIndex n (id - 1) ≠ none ↔ -(n : Int) < id ∧ id ≤ n := by
  unfold npIndex
  split
  · simp only [ne_eq, reduceCtorEq, not_false_eq_true, true_iff]; omega
  · split
    · simp only [ne_eq, reduceCtorEq, not_false_eq_true, true_iff]; omega
    · simp only [ne_eq, not_true_eq_false, false_iff]; omega

theorem zip_numeric (float : List Char → Option F) (hs row : List (List Char)) :
    (∀ p ∈ hs.zip row, float p.2 ≠ none) ↔ RowNumeric float hs.length row := by
  unfold RowNumeric
  constructor
  · intro h j w hj hw
    have : (hs.zip row)[j]? = some (hs[j], w) :=
      List.getElem?_zip_eq_some.2 ⟨List.getElem?_eq_getElem hj, hw⟩
    exact h _ (List.mem_of_getElem? this)
  · rintro h ⟨a, w⟩ hp
    obtain ⟨j, hj⟩ := List.mem_iff_getElem?.1 hp
    rw [List.getElem?_zip_eq_some] at hj
    exact h j w (List.getElem?_eq_some_iff.1 hj.1).1 hj.2

theorem readRows_ok (float : List Char → Option F) (hs : List (List Char)) (idCol n : Nat)
    (hc : idCol < hs.length) :
    ∀ (k : Nat) (src : List Char) (cols : Dict (List Char) (List (Option F))),
      (∃ out, readRows float hs idCol n k src cols = .ok out) ↔
        ∀ row ∈ rowsOf k src, IdAccepted idCol n row ∧ RowNumeric float hs.length row
  | 0, src, cols => by simp [readRows, rowsOf]
  | k + 1, src, cols => by
    rw [rowsOf]
    simp only [List.mem_cons, forall_eq_or_imp]
    rw [readRows]
    generalize splitOn ' ' (readline src).1 = row
    have hne : ∀ w, row[idCol]? = some w → hs.zip row ≠ [] := by
      intro w hw h0
      have : (hs.zip row)[idCol]? = some (hs[idCol], w) :=
        List.getElem?_zip_eq_some.2 ⟨List.getElem?_eq_getElem hc, hw⟩
      rw [h0] at this
      cases this
    unfold IdAccepted
    cases hw : row[idCol]? with
    | none => simp
    | some w =>
      simp only
      cases hid : pyInt w with
      | none =>
        simp only [Option.some.injEq, reduceCtorEq, exists_false, false_iff]
        rintro ⟨⟨⟨w', id, rfl, h2, _⟩, _⟩, _⟩
        rw [(C158_int w id).2 h2] at hid
        cases hid
      | some id =>
        simp only
        have hacc : (∃ w' id', some w = some w' ∧ Numeral w' id' ∧ -(n : Int) < id' ∧ id' ≤ n) ↔
            npIndex n (id - 1) ≠ none := by
          rw [npIndex_ne_none]
          constructor
          · rintro ⟨w', id', h1, h2, h3⟩
            obtain rfl := Option.some.inj h1
            rw [(C158_int w id').2 h2] at hid
            obtain rfl := Option.some.inj hid
            exact h3
          · intro h3
            exact ⟨w, id, rfl, (C158_int w id).1 hid, h3⟩
        rw [hacc]
        have hwr := writeRow_ok float n (id - 1) (hs.zip row) cols
        rw [zip_numeric] at hwr
        simp only [hne w hw, false_or] at hwr
        cases hres : writeRow float n (id - 1) cols (hs.zip row) with
        | error e =>
          rw [hres] at hwr
          simp only [reduceCtorEq, exists_false, false_iff] at hwr ⊢
          tauto
        | ok cols' =>
          rw [hres] at hwr
          simp only [Except.ok.injEq, exists_eq', true_iff] at hwr
          simp only
          rw [readRows_ok float hs idCol n hc k]
          exact ⟨fun h => ⟨⟨hwr.2, hwr.1⟩, h⟩, fun h => h.2⟩

/-- **C76, the exact condition.**  The atoms section of a frame of `n` atoms, whose first line has a
heading `id`, is read without exception iff each of its `n` lines has an id from -(n-1) to n and
nothing but numbers below the headings. -/
theorem C76_exactly (float : List Char → Option F) (t : Int) (n : Nat) (box : List F)
    (src : List Char) (idCol : Nat) (hline : hasSub "ITEM: ATOMS".toList (readline src).1 = true)
    (hid : idColumn ((splitOn ' ' (strip (readline src).1)).drop 2) = some idCol) :
    (∃ f rest, readAtoms float t n box src = .ok (f, rest)) ↔
    ∀ row ∈ rowsOf n (readline src).2, IdAccepted idCol n row ∧
      RowNumeric float ((splitOn ' ' (strip (readline src).1)).drop 2).length row := by
  have hc : idCol < ((splitOn ' ' (strip (readline src).1)).drop 2).length := by
    unfold idColumn at hid
    rw [List.findIdx?_eq_some_iff_getElem] at hid
    exact hid.1
  unfold readAtoms
  simp only [hid, hline, Bool.true_eq_false, if_false]
  rw [if_neg (by omega), Int.toNat_natCast]
  rw [← readRows_ok float _ idCol n hc n _
    (((splitOn ' ' (strip (readline src).1)).drop 2).foldl
      (fun d h => Dict.set d h (List.replicate n none)) [])]
  cases readRows float ((splitOn ' ' (strip (readline src).1)).drop 2) idCol n n (readline src).2
      (((splitOn ' ' (strip (readline src).1)).drop 2).foldl
        (fun d h => Dict.set d h (List.replicate n none)) []) with
  | error e => simp
  | ok p => simp

/-- **C76, ids out of reach.**  A section with an id above n, or below -(n-1), on any of its lines ends
in an exception. -/
theorem C76_section (float : List Char → Option F) (t : Int) (n : Nat) (box : List F)
    (src : List Char) (idCol : Nat)
    (hid : idColumn ((splitOn ' ' (strip (readline src).1)).drop 2) = some idCol)
    {row : List (List Char)} (hrow : row ∈ rowsOf n (readline src).2) {w : List Char} {id : Int}
    (hw : row[idCol]? = some w) (hn : Numeral w id) (hout : (n : Int) < id ∨ id ≤ -(n : Int)) :
    ∃ e, readAtoms float t n box src = .error e := by
  cases hres : readAtoms float t n box src with
  | error e => exact ⟨e, rfl⟩
  | ok p =>
    exfalso
    have hline : hasSub "ITEM: ATOMS".toList (readline src).1 = true := by
      cases h : hasSub "ITEM: ATOMS".toList (readline src).1 with
      | true => rfl
      | false =>
        have : readAtoms float t n box src = .error .assertionError := by
          unfold readAtoms
          exact if_pos h
        rw [this] at hres
        cases hres
    obtain ⟨⟨w', id', h1, h2, h3⟩, _⟩ :=
      (C76_exactly float t n box src idCol hline hid).1 ⟨p.1, p.2, hres⟩ row hrow
    rw [hw] at h1
    obtain rfl := Option.some.inj h1
    have := C158_unique w id id' hn h2
    omega

/-- A section with id 3 for two atoms. -/
def outText : List Char := "ITEM: ATOMS id x\n1 7\n3 8\n".toList

example : idColumn ((splitOn ' ' (strip (readline outText).1)).drop 2) = some 0 ∧
    (["3".toList, "8\n".toList] : List (List Char)) ∈ rowsOf 2 (readline outText).2 ∧
    readAtoms pyInt 0 (2 : Nat) [] outText = .error .indexError := by decide

/-- A section that is read although an id is 0. -/
example : hasSub "ITEM: ATOMS".toList (readline "ITEM: ATOMS id x\n1 7\n0 8\n".toList).1 = true ∧
    readAtoms pyInt 0 (2 : Nat) [] "ITEM: ATOMS id x\n1 7\n0 8\n".toList =
      .ok (⟨0, [], [("id".toList, [some 1, some 0]), ("x".toList, [some 7, some 8])]⟩, []) := by decide

end Verif.Lammps
