import Verif.Lammps.NumberProps
/-!
# Which entries of the columns are written
-/

namespace Verif.Lammps

open Verif.Text

variable {F : Type}

/-- The entry of a column has never been written. -/
def Unwritten (cols : Dict (List Char) (List (Option F))) (h : List Char) (i : Nat) : Prop :=
  ((Dict.get? cols h).getD [])[i]? = some none

/-- The words of the next `k` lines. -/
def rowsOf : Nat → List Char → List (List (List Char))
  | 0, _ => []
  | k + 1, s => splitOn ' ' (readline s).1 :: rowsOf k (readline s).2

theorem rowsOf_length : ∀ (k : Nat) (s : List Char), (rowsOf k s).length = k
  | 0, _ => rfl
  | k + 1, s => by rw [rowsOf, List.length_cons, rowsOf_length]

theorem setCell_blank (cols : Dict (List Char) (List (Option F))) (k : List Char) (i' : Nat) (v : F)
    (h : List Char) (i : Nat) : Unwritten (setCell cols k i' v) h i ↔ Unwritten cols h i ∧ ¬ (h = k ∧ i' = i) := by
  unfold Unwritten setCell
  rw [Dict.get?_set]
  by_cases hk : k = h
  · subst hk
    rw [if_pos rfl, Option.getD_some, List.getElem?_set]
    by_cases hi : i' = i
    · subst hi
      rw [if_pos rfl]
      split <;> simp
    · rw [if_neg hi]
      simp [hi]
  · rw [if_neg hk]
    have h3 : ¬ h = k := fun e => hk e.symm
    simp [h3]

theorem writeRow_blank (float : List Char → Option F) (n : Nat) (m : Int) (h : List Char) (i : Nat) :
    ∀ (zs : List (List Char × List Char)) (cols out : Dict (List Char) (List (Option F))),
      writeRow float n m cols zs = .ok out →
      (Unwritten out h i ↔ Unwritten cols h i ∧ ¬ (h ∈ zs.map Prod.fst ∧ npIndex n m = some i))
  | [], cols, out, e => by
    obtain rfl := Except.ok.inj e
    simp
  | (k, w) :: zs, cols, out, e => by
    rw [writeRow] at e
    split at e
    · cases e
    split at e
    · cases e
    rename_i i' hi'
    rw [writeRow_blank float n m h i zs _ out e, setCell_blank, hi']
    simp only [List.map_cons, List.mem_cons, Option.some.injEq]
    tauto

/-- A row writes the entry `i` of the column `h`. -/
def Writes (hs : List (List Char)) (idCol n : Nat) (row : List (List Char)) (h : List Char) (i : Nat) :
    Prop :=
  (∃ j, hs[j]? = some h ∧ j < row.length) ∧
    ∃ w id, row[idCol]? = some w ∧ pyInt w = some id ∧ npIndex n (id - 1) = some i

theorem mem_zip_fst (hs row : List (List Char)) (h : List Char) :
    h ∈ (hs.zip row).map Prod.fst ↔ ∃ j, hs[j]? = some h ∧ j < row.length := by
  rw [List.mem_iff_getElem?]
  constructor
  · rintro ⟨j, hj⟩
    rw [List.getElem?_map, Option.map_eq_some_iff] at hj
    obtain ⟨⟨a, b⟩, h1, rfl⟩ := hj
    rw [List.getElem?_zip_eq_some] at h1
    exact ⟨j, h1.1, (List.getElem?_eq_some_iff.1 h1.2).1⟩
  · rintro ⟨j, h1, h2⟩
    refine ⟨j, ?_⟩
    rw [List.getElem?_map, Option.map_eq_some_iff]
    exact ⟨(h, row[j]), List.getElem?_zip_eq_some.2 ⟨h1, List.getElem?_eq_getElem h2⟩, rfl⟩

theorem readRows_blank (float : List Char → Option F) (hs : List (List Char)) (idCol n : Nat)
    (h : List Char) (i : Nat) :
    ∀ (k : Nat) (src : List Char) (cols out : Dict (List Char) (List (Option F))) (rest : List Char),
      readRows float hs idCol n k src cols = .ok (out, rest) →
      (Unwritten out h i ↔ Unwritten cols h i ∧ ¬ ∃ row ∈ rowsOf k src, Writes hs idCol n row h i)
  | 0, src, cols, out, rest, e => by
    obtain ⟨rfl, rfl⟩ := Prod.mk.inj (Except.ok.inj e)
    simp [rowsOf]
  | k + 1, src, cols, out, rest, e => by
    rw [readRows] at e
    split at e
    · cases e
    rename_i w hw
    split at e
    · cases e
    rename_i id hid
    split at e
    · cases e
    rename_i cols' hwr
    rw [readRows_blank float hs idCol n h i k _ _ _ _ e, writeRow_blank float n _ h i _ _ _ hwr, mem_zip_fst]
    have hW : Writes hs idCol n (splitOn ' ' (readline src).1) h i ↔
        (∃ j, hs[j]? = some h ∧ j < (splitOn ' ' (readline src).1).length) ∧
          npIndex n (id - 1) = some i := by
      unfold Writes
      refine and_congr_right fun _ => ⟨?_, fun h3 => ⟨w, id, hw, hid, h3⟩⟩
      rintro ⟨w', id', h1, h2, h3⟩
      rw [hw] at h1
      obtain rfl := Option.some.inj h1
      rw [hid] at h2
      obtain rfl := Option.some.inj h2
      exact h3
    rw [← hW, rowsOf]
    simp only [List.mem_cons, exists_eq_or_imp]
    rw [not_or, and_assoc]

theorem foldl_get (n : Nat) (h : List Char) : ∀ (hs : List (List Char)) (d : Dict (List Char) (List (Option F))),
    Dict.get? (hs.foldl (fun d h => Dict.set d h (List.replicate n none)) d) h =
      if h ∈ hs then some (List.replicate n none) else Dict.get? d h
  | [], d => by simp
  | k :: hs, d => by
    rw [List.foldl_cons, foldl_get n h hs, Dict.get?_set]
    by_cases h1 : h ∈ hs
    · simp [h1]
    · by_cases h2 : k = h
      · subst h2; simp
      · have h3 : ¬ h = k := fun e => h2 e.symm
        simp [h1, h2, h3]

theorem foldl_blank (n : Nat) (hs : List (List Char)) (h : List Char) (i : Nat) :
    Unwritten (F := F) (hs.foldl (fun d h => Dict.set d h (List.replicate n none)) []) h i ↔ h ∈ hs ∧ i < n := by
  unfold Unwritten
  rw [foldl_get]
  split
  · rename_i hm
    rw [Option.getD_some, List.getElem?_replicate]
    simp [hm]
  · rename_i hm
    simp [hm, Dict.get?]

theorem npIndex_some (n : Nat) (m : Int) (i : Nat) :
    npIndex n m = some i ↔ i < n ∧ (m = i ∨ m = i - n) := by
  unfold npIndex
  split
  · simp only [Option.some.injEq]; omega
  · split
    · simp only [Option.some.injEq]; omega
    · simp only [reduceCtorEq, false_iff]; omega

end Verif.Lammps
