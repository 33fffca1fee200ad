import Verif.Lammps.SpaceProps
import Verif.Lammps.ValueLemmas
/-!
# Property C157: exactly which lines of atoms are read
-/

namespace Verif.Lammps

open Verif.Text

variable {F : Type}

/-- The line of an atom, as pieces between single spaces: there is a whole number in the place of `id`, and if there are
values below headings, the number is that of an atom and they are all numbers. -/
def Readable (float : List Char → Option F) (headings : List (List Char)) (idCol n : Nat)
    (row : List (List Char)) : Prop :=
  ∃ w id, row[idCol]? = some w ∧ pyInt w = some id ∧
    ∀ j, j < headings.length → ∀ x, row[j]? = some x →
      (∃ v, float x = some v) ∧ ∃ i, npIndex n (id - 1) = some i

theorem writeRow_ok_iff (float : List Char → Option F) (n : Nat) (m : Int) :
    ∀ (zs : List (List Char × List Char)) (cols : Dict (List Char) (List (Option F))),
      (∃ out, writeRow float n m cols zs = .ok out) ↔
        ∀ p ∈ zs, (∃ v, float p.2 = some v) ∧ ∃ i, npIndex n m = some i
  | [], cols => by simp [writeRow]
  | (h, w) :: zs, cols => by
    rw [writeRow, List.forall_mem_cons]
    cases hf : float w with
    | none => simp
    | some v =>
      cases hi : npIndex n m with
      | none => simp
      | some i =>
        have := writeRow_ok_iff float n m zs (setCell cols h i v)
        rw [hi] at this
        simp only [this]
        simp

/-- **C157, exactly.**  The lines of the atoms are read iff each of them, cut at single spaces, is `Readable`: empty
pieces, of two spaces or a leading one, and pieces with a tab are not numbers. -/
theorem C157_exactly (float : List Char → Option F) (headings : List (List Char)) (idCol n : Nat) :
    ∀ (k : Nat) (src : List Char) (cols : Dict (List Char) (List (Option F))),
      (∃ out, readRows float headings idCol n k src cols = .ok out) ↔
        ∀ row ∈ rowsOf k src, Readable float headings idCol n row
  | 0, src, cols => by simp [readRows, rowsOf]
  | k + 1, src, cols => by
    rw [readRows, rowsOf, List.forall_mem_cons]
    cases hw : (splitOn ' ' (readline src).1)[idCol]? with
    | none => simp [Readable, hw]
    | some w =>
      cases hid : pyInt w with
      | none => simp [Readable, hw, hid]
      | some id =>
        have hread : Readable float headings idCol n (splitOn ' ' (readline src).1) ↔
            ∃ out, writeRow float n (id - 1) cols (headings.zip (splitOn ' ' (readline src).1)) = .ok out := by
          rw [writeRow_ok_iff]
          constructor
          · rintro ⟨w', id', h1, h2, h3⟩ p hp
            rw [hw] at h1
            cases h1
            rw [hid] at h2
            cases h2
            obtain ⟨j, hj, rfl⟩ := List.mem_iff_getElem.1 hp
            rw [List.length_zip] at hj
            rw [List.getElem_zip]
            exact h3 j (by omega) _ (List.getElem?_eq_getElem (by omega))
          · intro h
            refine ⟨w, id, hw, hid, fun j hj x hx => ?_⟩
            obtain ⟨hj', rfl⟩ := List.getElem?_eq_some_iff.1 hx
            have hz : j < (headings.zip (splitOn ' ' (readline src).1)).length := by
              rw [List.length_zip]
              omega
            have := h _ (List.getElem_mem hz)
            rwa [List.getElem_zip] at this
        rw [hread]
        simp only [hid]
        cases hwr : writeRow float n (id - 1) cols (headings.zip (splitOn ' ' (readline src).1)) with
        | error e => simp
        | ok cols' =>
          simp only [Except.ok.injEq, exists_eq', true_and]
          exact C157_exactly float headings idCol n k (readline src).2 cols'

/-- A line is read with one space, and with further words behind a last space, but not with two spaces. -/
example : Readable pyInt ["id".toList, "x".toList] 0 1 (splitOn ' ' "1 5 \n".toList) ∧
    ¬ Readable pyInt ["id".toList, "x".toList] 0 1 (splitOn ' ' "1  5\n".toList) := by
  constructor
  · refine ⟨"1".toList, 1, by decide, by decide, ?_⟩
    intro j hj x hx
    have : j = 0 ∨ j = 1 := by
      simp only [List.length_cons, List.length_nil] at hj
      omega
    rcases this with rfl | rfl
    · obtain rfl : "1".toList = x := Option.some.inj (by rw [← hx]; decide)
      exact ⟨⟨1, by decide⟩, 0, by decide⟩
    · obtain rfl : "5".toList = x := Option.some.inj (by rw [← hx]; decide)
      exact ⟨⟨5, by decide⟩, 0, by decide⟩
  · rintro ⟨w, id, -, -, h⟩
    obtain ⟨⟨v, hv⟩, -⟩ := h 1 (by decide) [] (by decide)
    revert hv
    exact fun hv => absurd hv (by rw [show pyInt [] = none by decide]; simp)

end Verif.Lammps
