import Verif.Lammps.SpaceLemmas
import Verif.Lammps.Props
/-!
# C157: white space in lammps files
-/

namespace Verif.Lammps

open Verif.Text

variable {F : Type} [Sub F]

/-- The full statement: two texts with the same words on each line are read as the same frames. -/
def SpacingFree (float : List Char → Option Int) : Prop :=
  ∀ lines lines' : List (List Char), (∀ l ∈ lines, '\n' ∉ l) → (∀ l ∈ lines', '\n' ∉ l) →
    lines.map splitWs = lines'.map splitWs →
    parseLammps float (lines.flatMap (· ++ ['\n'])) = parseLammps float (lines'.flatMap (· ++ ['\n']))

/-- A frame of one atom, with `gap` between its number and its position. -/
def oneAtom (gap : List Char) : List (List Char) :=
  ["ITEM: TIMESTEP".toList, "0".toList, "ITEM: NUMBER OF ATOMS".toList, "1".toList, "ITEM: BOX BOUNDS".toList,
    "0 9".toList, "0 9".toList, "0 9".toList, "ITEM: ATOMS id x".toList, '1' :: gap ++ ['5']]

/-- **C157, refuted.**  With two spaces between the values of an atom, or a tab, nothing is read. -/
theorem C157_spacing_refuted : ¬ SpacingFree pyInt := by
  intro h
  have := h (oneAtom [' ']) (oneAtom [' ', ' ']) (by decide) (by decide) (by decide)
  revert this
  decide

example : parseLammps pyInt ((oneAtom ['\t']).flatMap (· ++ ['\n'])) = ([], some .valueError) ∧
    parseLammps pyInt ((oneAtom [' ']).flatMap (· ++ ['\n'])) =
      ([⟨0, [9, 9, 9], [("id".toList, [some 1]), ("x".toList, [some 5])]⟩], none) := by
  decide

/-- **C157, proved part.**  The full statement is `SpacingFree`.  The numbers of the timestep, of the number of atoms
and of the box may have any white space around and between them: the frames are read as with single spaces.  Missing: the
lines of the atoms, of which it is false (`C157_spacing_refuted`), and the headings. -/
theorem C157_spacing_partial (float : List Char → Option F) (hfloat : ∀ w, float (w ++ ['\n']) = float w)
    (fs : List (FrameText F × Spacing)) (hv : ∀ p ∈ fs, p.1.Valid float) (hs : ∀ p ∈ fs, p.2.Valid) :
    parseLammps float (fs.flatMap (fun p => p.1.spaced p.2)) = (fs.map (fun p => p.1.value), none) ∧
    parseLammps float (fs.flatMap (fun p => p.1.spaced p.2)) = parseLammps float (fs.flatMap (fun p => p.1.write)) := by
  have key : parseLammps float (fs.flatMap (fun p => p.1.spaced p.2)) = (fs.map (fun p => p.1.value), none) := by
    induction fs with
    | nil => rfl
    | cons p fs ih =>
      have hne : p.1.spaced p.2 ++ fs.flatMap (fun p => p.1.spaced p.2) ≠ [] :=
        List.append_ne_nil_of_left_ne_nil (List.append_ne_nil_of_left_ne_nil
          (List.append_ne_nil_of_left_ne_nil (by decide) _) _) _
      rw [List.flatMap_cons, parseLammps_cons float _ _ _ hne
        (readFrame_spaced float hfloat p.1 (hv p (by simp)) p.2 (hs p (by simp)) _),
        ih (fun q hq => hv q (by simp [hq])) (fun q hq => hs q (by simp [hq]))]
      rfl
  refine ⟨key, key.trans ?_⟩
  have := C18_lammps_round_trip float hfloat (fs.map Prod.fst) (by
    intro f hf
    obtain ⟨p, hp, rfl⟩ := List.mem_map.1 hf
    exact hv p hp)
  rw [List.flatMap_map, List.map_map] at this
  exact this.symm

/-- The spacing of an indented file with tabs. -/
def tabs : Spacing where
  stepLead := "  ".toList
  stepTail := "\t".toList
  numLead := "\t".toList
  numTail := []
  boundLead := fun _ => " ".toList
  boundGap := fun _ => "\t ".toList

example : (sampleText 7).Valid pyInt ∧ tabs.Valid := by
  have h : ∀ w : List Char, (w.all (fun c => c ∈ [' ', '\t', '\x0b', '\x0c'])) = true → Blank w := by
    intro w hw c hc
    exact of_decide_eq_true (List.all_eq_true.1 hw c hc)
  refine ⟨sampleText_valid 7, ⟨h _ (by decide), h _ (by decide)⟩, ⟨h _ (by decide), h _ (by decide)⟩, ?_⟩
  intro a
  exact ⟨h _ (by decide +revert), h _ (by decide +revert), by decide +revert⟩

omit [Sub F] in
/-- **C157, atoms.**  When the line of an atom, split at the spaces, has an empty word among the values (two spaces, a
leading space), and `float` refuses an empty text as that of Python does, the frame is not read. -/
theorem C157_empty_word (float : List Char → Option F) (hempty : float [] = none) (headings : List (List Char))
    (idCol n k : Nat) (src : List Char) (cols : Dict (List Char) (List (Option F))) (j : Nat)
    (hj : j < headings.length) (hword : (splitOn ' ' (readline src).1)[j]? = some []) :
    ∃ e, readRows float headings idCol n (k + 1) src cols = .error e := by
  rw [readRows]
  cases (splitOn ' ' (readline src).1)[idCol]? with
  | none => exact ⟨_, rfl⟩
  | some w =>
    simp only
    cases pyInt w with
    | none => exact ⟨_, rfl⟩
    | some id =>
      simp only
      obtain ⟨hlen, he⟩ := List.getElem?_eq_some_iff.1 hword
      have hmem : (headings[j], ([] : List Char)) ∈ headings.zip (splitOn ' ' (readline src).1) := by
        rw [List.mem_iff_getElem]
        refine ⟨j, by rw [List.length_zip]; omega, ?_⟩
        rw [List.getElem_zip, he]
      obtain ⟨e, h⟩ := writeRow_empty float hempty n (id - 1) _ cols ⟨_, hmem⟩
      rw [h]
      exact ⟨_, rfl⟩

example : (splitOn ' ' (readline "1  5\n".toList).1)[1]? = some [] ∧ pyInt [] = none := by decide

end Verif.Lammps
