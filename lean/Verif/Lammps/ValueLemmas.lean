import Verif.Lammps.FilledProps
/-!
# The value of each entry of the columns
-/

namespace Verif.Lammps

open Verif.Text

variable {F : Type}

/-- The entry `i` of the column `h`. -/
def cell (cols : Dict (List Char) (List (Option F))) (h : List Char) (i : Nat) : Option (Option F) :=
  ((Dict.get? cols h).getD [])[i]?

theorem setCell_cell (cols : Dict (List Char) (List (Option F))) (k : List Char) (i' : Nat) (v : F)
    (h : List Char) (i : Nat) : cell (setCell cols k i' v) h i =
      if k = h ∧ i' = i ∧ (cell cols h i).isSome then some (some v) else cell cols h i := by
  unfold cell setCell
  rw [Dict.get?_set]
  by_cases hk : k = h
  · subst hk
    rw [if_pos rfl, Option.getD_some, List.getElem?_set]
    by_cases hi : i' = i
    · subst hi
      by_cases hl : i' < ((Dict.get? cols k).getD []).length
      · rw [List.getElem?_eq_getElem hl]
        simp [hl]
      · rw [List.getElem?_eq_none (by omega)]
        simp [hl]
    · simp [hi]
  · simp [hk]

theorem writeRow_keeps (float : List Char → Option F) (n : Nat) (m : Int) (h : List Char) (i : Nat) :
    ∀ (zs : List (List Char × List Char)) (cols out : Dict (List Char) (List (Option F))),
      writeRow float n m cols zs = .ok out → (h ∉ zs.map Prod.fst ∨ npIndex n m ≠ some i) →
      cell out h i = cell cols h i
  | [], cols, out, e, _ => by
    obtain rfl := Except.ok.inj e
    rfl
  | (k, w) :: zs, cols, out, e, hn => by
    rw [writeRow] at e
    split at e
    · cases e
    split at e
    · cases e
    rename_i i' hi'
    rw [writeRow_keeps float n m h i zs _ out e (hn.imp (fun h1 h2 => h1 (by simp [h2])) id), setCell_cell,
      if_neg]
    rintro ⟨rfl, rfl, -⟩
    rcases hn with hn | hn
    · exact hn (by simp)
    · exact hn hi'

theorem writeRow_isSome (float : List Char → Option F) (n : Nat) (m : Int) (h : List Char) (i : Nat) :
    ∀ (zs : List (List Char × List Char)) (cols out : Dict (List Char) (List (Option F))),
      writeRow float n m cols zs = .ok out → (cell out h i).isSome = (cell cols h i).isSome
  | [], cols, out, e => by
    obtain rfl := Except.ok.inj e
    rfl
  | (k, w) :: zs, cols, out, e => by
    rw [writeRow] at e
    split at e
    · cases e
    split at e
    · cases e
    rename_i i' hi'
    rw [writeRow_isSome float n m h i zs _ out e, setCell_cell]
    split
    · rename_i h1
      rw [h1.2.2]
      rfl
    · rfl

theorem writeRow_last (float : List Char → Option F) (n : Nat) (m : Int) (h w : List Char) (i : Nat)
    (hi : npIndex n m = some i) :
    ∀ (pre post : List (List Char × List Char)) (cols out : Dict (List Char) (List (Option F))),
      writeRow float n m cols (pre ++ (h, w) :: post) = .ok out → h ∉ post.map Prod.fst →
      (cell cols h i).isSome → ∃ v, float w = some v ∧ cell out h i = some (some v)
  | [], post, cols, out, e, hp, hc => by
    rw [List.nil_append, writeRow] at e
    split at e
    · cases e
    rename_i v hv
    rw [hi] at e
    refine ⟨v, hv, ?_⟩
    rw [writeRow_keeps float n m h i post _ out e (Or.inl hp), setCell_cell, if_pos ⟨rfl, rfl, hc⟩]
  | (k, w') :: pre, post, cols, out, e, hp, hc => by
    rw [List.cons_append, writeRow] at e
    split at e
    · cases e
    rename_i v hv
    rw [hi] at e
    refine writeRow_last float n m h w i hi pre post _ out e hp ?_
    rw [setCell_cell]
    split
    · rfl
    · exact hc

/-- Whether a row writes an entry, when its id is known. -/
theorem writes_of (hs : List (List Char)) (idCol n : Nat) (row : List (List Char)) (h : List Char) (i : Nat)
    (w : List Char) (id : Int) (hw : row[idCol]? = some w) (hid : pyInt w = some id) :
    Writes hs idCol n row h i ↔ h ∈ (hs.zip row).map Prod.fst ∧ npIndex n (id - 1) = some i := by
  rw [mem_zip_fst]
  unfold Writes
  refine and_congr_right fun _ => ⟨?_, fun h3 => ⟨w, id, hw, hid, h3⟩⟩
  rintro ⟨w', id', h1, h2, h3⟩
  rw [hw] at h1
  obtain rfl := Option.some.inj h1
  rw [hid] at h2
  obtain rfl := Option.some.inj h2
  exact h3

theorem readRows_keeps (float : List Char → Option F) (hs : List (List Char)) (idCol n : Nat)
    (h : List Char) (i : Nat) :
    ∀ (k : Nat) (src : List Char) (cols out : Dict (List Char) (List (Option F))) (rest : List Char),
      readRows float hs idCol n k src cols = .ok (out, rest) →
      (∀ row ∈ rowsOf k src, ¬ Writes hs idCol n row h i) → cell out h i = cell cols h i
  | 0, src, cols, out, rest, e, _ => by
    obtain ⟨rfl, rfl⟩ := Prod.mk.inj (Except.ok.inj e)
    rfl
  | k + 1, src, cols, out, rest, e, hn => by
    rw [readRows] at e
    split at e
    · cases e
    rename_i w hw
    split at e
    · cases e
    rename_i id hid
    split at e
    · cases e
    rename_i cols' hwr
    rw [rowsOf] at hn
    rw [readRows_keeps float hs idCol n h i k _ _ _ _ e (fun r hr => hn r (by simp [hr]))]
    have := hn _ List.mem_cons_self
    rw [writes_of _ _ _ _ _ _ w id hw hid, not_and_or] at this
    exact writeRow_keeps float n _ h i _ _ _ hwr this

theorem readRows_last (float : List Char → Option F) (hs : List (List Char)) (idCol n : Nat)
    (h w : List Char) (i : Nat) (row : List (List Char)) (p q : List (List Char × List Char))
    (hrow : Writes hs idCol n row h i) (hz : hs.zip row = p ++ (h, w) :: q) (hq : h ∉ q.map Prod.fst) :
    ∀ (pre post : List (List (List Char))) (k : Nat) (src : List Char)
      (cols out : Dict (List Char) (List (Option F))) (rest : List Char),
      readRows float hs idCol n k src cols = .ok (out, rest) → rowsOf k src = pre ++ row :: post →
      (∀ r ∈ post, ¬ Writes hs idCol n r h i) → (cell cols h i).isSome →
      ∃ v, float w = some v ∧ cell out h i = some (some v)
  | pre, post, 0, src, cols, out, rest, _, hr, _, _ => by simp [rowsOf] at hr
  | pre, post, k + 1, src, cols, out, rest, e, hr, hp, hc => by
    rw [readRows] at e
    split at e
    · cases e
    rename_i w' hw
    split at e
    · cases e
    rename_i id hid
    split at e
    · cases e
    rename_i cols' hwr
    rw [rowsOf] at hr
    match pre, hr with
    | [], hr =>
      obtain ⟨h1, h2⟩ := List.cons.inj hr
      rw [readRows_keeps float hs idCol n h i k _ _ _ _ e (by rw [h2]; exact hp)]
      rw [h1] at hwr hw
      rw [writes_of _ _ _ _ _ _ w' id hw hid] at hrow
      rw [hz] at hwr
      exact writeRow_last float n _ h w i hrow.2 p q _ _ hwr hq hc
    | r :: pre, hr =>
      obtain ⟨h1, h2⟩ := List.cons.inj hr
      exact readRows_last float hs idCol n h w i row p q hrow hz hq pre post k _ _ _ _ e h2 hp
        (by rw [writeRow_isSome float n _ h i _ _ _ hwr]; exact hc)

end Verif.Lammps
