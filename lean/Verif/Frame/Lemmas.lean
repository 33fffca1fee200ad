import Verif.Frame.Spec
/-!
# Lemmas about frames
-/

namespace Verif.Frame

open Verif.Motion (V3 Quat)

theorem foldl_max_ge (bs : List Int) (b : Int) :
    b ≤ bs.foldl (fun a c => if c > a then c else a) b ∧
    (∀ c ∈ bs, c ≤ bs.foldl (fun a c => if c > a then c else a) b) ∧
    (bs.foldl (fun a c => if c > a then c else a) b = b ∨
      bs.foldl (fun a c => if c > a then c else a) b ∈ bs) := by
  induction bs generalizing b with
  | nil => simp
  | cons c bs ih =>
    obtain ⟨h1, h2, h3⟩ := ih (if c > b then c else b)
    simp only [List.foldl_cons]
    have h4 : b ≤ (if c > b then c else b) ∧ c ≤ (if c > b then c else b) := by
      split <;> constructor <;> omega
    refine ⟨h4.1.trans h1, ?_, ?_⟩
    · intro d hd
      rcases List.mem_cons.1 hd with rfl | hd
      · exact h4.2.trans h1
      · exact h2 d hd
    · rcases h3 with h3 | h3
      · rw [h3]
        split
        · right; exact List.mem_cons_self
        · left; rfl
      · right; exact List.mem_cons_of_mem _ h3

theorem pyMax_spec (l : List Int) (m : Int) (h : pyMax l = some m) :
    m ∈ l ∧ ∀ b ∈ l, b ≤ m := by
  cases l with
  | nil => simp [pyMax] at h
  | cons b bs =>
    simp only [pyMax, Option.some.injEq] at h
    obtain ⟨h1, h2, h3⟩ := foldl_max_ge bs b
    rw [h] at h1 h2 h3
    refine ⟨?_, ?_⟩
    · rcases h3 with rfl | h3
      · exact List.mem_cons_self
      · exact List.mem_cons_of_mem _ h3
    · intro c hc
      rcases List.mem_cons.1 hc with rfl | hc
      · exact h1
      · exact h2 c hc

theorem pyMax_none (l : List Int) (h : pyMax l = none) : l = [] := by
  cases l with
  | nil => rfl
  | cons b bs => simp [pyMax] at h

theorem usableMax_iff (l : List Int) (m : Int) (h : pyMax l = some m) (N k : Int) :
    UsableMax (some l) N k ↔ k = m ∧ 1 ≤ m + 1 ∧ m + 1 ≤ N := by
  obtain ⟨h1, h2⟩ := pyMax_spec l m h
  constructor
  · rintro ⟨l', hl, hk, hk', h3, h4⟩
    cases hl
    have : k = m := le_antisymm (h2 k hk) (hk' m h1)
    subst this
    exact ⟨rfl, h3, h4⟩
  · rintro ⟨rfl, h3, h4⟩
    exact ⟨l, rfl, h1, h2, h3, h4⟩

theorem length_sliceTo {α : Type} (xs : List α) (n : Int) (h0 : 0 ≤ n) (h : n ≤ xs.length) :
    ((sliceTo xs n).length : Int) = n := by
  rw [sliceTo, if_pos h0, List.length_take]
  omega

theorem boxLoop_ge (index : Nat) (h : 5 < index) (vs box : List ℝ) :
    boxLoop index vs box = box := by
  cases vs with
  | nil => rfl
  | cons v vs => rw [boxLoop, if_pos h]

theorem boxLoop_spec (vs : List ℝ) : ∀ (index : Nat) (box : List ℝ), box.length = 6 →
    (boxLoop index vs box).length = 6 ∧
    ∀ i, i < 6 → (boxLoop index vs box)[i]? =
      if i < index then box[i]? else if i - index < vs.length then vs[i - index]? else box[i]? := by
  induction vs with
  | nil => intro index box hb; simp [boxLoop, hb]
  | cons v vs ih =>
    intro index box hb
    by_cases h5 : index > 5
    · rw [boxLoop, if_pos h5]
      refine ⟨hb, fun i hi => ?_⟩
      rw [if_pos (by omega)]
    · rw [boxLoop, if_neg h5]
      obtain ⟨h1, h2⟩ := ih (index + 1) (box.set index v) (by simpa using hb)
      refine ⟨h1, fun i hi => ?_⟩
      rw [h2 i hi]
      rcases lt_trichotomy i index with h | h | h
      · rw [if_pos (by omega), if_pos h, List.getElem?_set_ne (by omega)]
      · subst h
        rw [if_pos (by omega), if_neg (lt_irrefl _), if_pos (by simp), Nat.sub_self,
          List.getElem?_set_self (by omega)]
        rfl
      · have e1 : ¬ i < index + 1 := by omega
        have e2 : ¬ i < index := by omega
        rw [if_neg e1, if_neg e2, List.getElem?_set_ne (by omega)]
        have : i - index = (i - (index + 1)) + 1 := by omega
        rw [this]
        simp only [List.getElem?_cons_succ, List.length_cons, Nat.add_lt_add_iff_right]

theorem lammpsFrame_ok (junk : ℝ) (f : Lammps.LFrame ℝ) (v : View) :
    lammpsFrame junk f = .ok v ↔ ∃ x y z, column junk f "x" = .ok x ∧ column junk f "y" = .ok y ∧
      column junk f "z" = .ok z ∧ x.length = y.length ∧ y.length = z.length ∧
      v = lammpsView f (x.zip (y.zip z)) x y z := by
  unfold lammpsFrame
  rcases column junk f "x" with e | x
  · simp
  rcases column junk f "y" with e | y
  · simp
  rcases column junk f "z" with e | z
  · simp
  unfold stack
  by_cases hl : x.length = y.length ∧ y.length = z.length
  · simp [hl.1, hl.2, eq_comm]
  · simp only [if_neg hl]
    constructor
    · intro h; cases h
    · rintro ⟨x', y', z', hx, hy, hz, h1, h2, _⟩
      cases hx; cases hy; cases hz
      exact absurd ⟨h1, h2⟩ hl

/-! ### Columns of the frames of the lammps reader -/

/-- All columns have `n` entries. -/
def ColsLen (n : Nat) (cols : Dict (List Char) (List (Option ℝ))) : Prop :=
  ∀ h c, Dict.get? cols h = some c → c.length = n

theorem colsLen_writeRow (float : List Char → Option ℝ) (n : Nat) (k : Int) :
    ∀ (ps : List (List Char × List Char)) (cols cols' : Dict (List Char) (List (Option ℝ))),
    ColsLen n cols → (∀ p ∈ ps, (Dict.get? cols p.1).isSome) →
    Lammps.writeRow float n k cols ps = .ok cols' →
    ColsLen n cols' ∧ ∀ h, (Dict.get? cols h).isSome → (Dict.get? cols' h).isSome := by
  intro ps
  induction ps with
  | nil =>
    intro cols cols' hc _ h
    simp only [Lammps.writeRow, Except.ok.injEq] at h
    subst h
    exact ⟨hc, fun _ h => h⟩
  | cons p ps ih =>
    obtain ⟨hd, w⟩ := p
    intro cols cols' hc hp h
    rw [Lammps.writeRow] at h
    cases hf : float w with
    | none => simp [hf] at h
    | some v =>
      cases hi : Lammps.npIndex n k with
      | none => simp [hf, hi] at h
      | some i =>
        simp only [hf, hi] at h
        have hsome : ∀ h', (Dict.get? cols h').isSome →
            (Dict.get? (Lammps.setCell cols hd i v) h').isSome := by
          intro h' hh
          rw [Lammps.setCell, Dict.get?_set]
          split
          · rfl
          · exact hh
        have hc' : ColsLen n (Lammps.setCell cols hd i v) := by
          intro h' c hh
          rw [Lammps.setCell, Dict.get?_set] at hh
          split at hh
          · obtain ⟨c0, hc0⟩ := Option.isSome_iff_exists.1 (hp (hd, w) List.mem_cons_self)
            simp only [hc0, Option.getD_some, Option.some.injEq] at hh
            rw [← hh, List.length_set]
            exact hc _ _ hc0
          · exact hc _ _ hh
        obtain ⟨h1, h2⟩ := ih _ cols' hc'
          (fun p hp' => hsome _ (hp p (List.mem_cons_of_mem _ hp'))) h
        exact ⟨h1, fun h' hh => h2 h' (hsome h' hh)⟩

theorem colsLen_readRows (float : List Char → Option ℝ) (headings : List (List Char))
    (idCol n : Nat) : ∀ (k : Nat) (src rest : List Char)
    (cols cols' : Dict (List Char) (List (Option ℝ))),
    ColsLen n cols → (∀ h ∈ headings, (Dict.get? cols h).isSome) →
    Lammps.readRows float headings idCol n k src cols = .ok (cols', rest) → ColsLen n cols' := by
  intro k
  induction k with
  | zero =>
    intro src rest cols cols' hc _ h
    simp only [Lammps.readRows, Except.ok.injEq, Prod.mk.injEq] at h
    rw [← h.1]
    exact hc
  | succ k ih =>
    intro src rest cols cols' hc hh h
    rw [Lammps.readRows] at h
    cases hl : (Text.splitOn ' ' (Text.readline src).1)[idCol]? with
    | none => simp [hl] at h
    | some w =>
      cases hi : Text.pyInt w with
      | none => simp [hl, hi] at h
      | some id =>
        cases hw : Lammps.writeRow float n (id - 1) cols
            (headings.zip (Text.splitOn ' ' (Text.readline src).1)) with
        | error e => simp [hl, hi, hw] at h
        | ok c1 =>
          simp only [hl, hi, hw] at h
          obtain ⟨h1, h2⟩ := colsLen_writeRow float n (id - 1) _ cols c1 hc
            (fun p hp => hh p.1 (List.of_mem_zip hp).1) hw
          exact ih _ rest c1 cols' h1 (fun h' hm => h2 h' (hh h' hm)) h

theorem colsLen_empty (n : Nat) (headings : List (List Char))
    (d : Dict (List Char) (List (Option ℝ))) (hd : ColsLen n d) :
    let d' := headings.foldl (fun d h => Dict.set d h (List.replicate n none)) d
    ColsLen n d' ∧ (∀ h ∈ headings, (Dict.get? d' h).isSome) ∧
      ∀ h, (Dict.get? d h).isSome → (Dict.get? d' h).isSome := by
  induction headings generalizing d with
  | nil => exact ⟨hd, by simp, fun _ h => h⟩
  | cons a as ih =>
    have h1 : ColsLen n (Dict.set d a (List.replicate n none)) := by
      intro h c hc
      rw [Dict.get?_set] at hc
      split at hc
      · cases hc; exact List.length_replicate
      · exact hd _ _ hc
    obtain ⟨h2, h3, h4⟩ := ih _ h1
    refine ⟨h2, ?_, ?_⟩
    · intro h hm
      rcases List.mem_cons.1 hm with rfl | hm
      · exact h4 _ (by rw [Dict.get?_set]; simp)
      · exact h3 h hm
    · intro h hs
      refine h4 h ?_
      rw [Dict.get?_set]
      split
      · rfl
      · exact hs

theorem readFrame_cols (float : List Char → Option ℝ) (src rest : List Char)
    (f : Lammps.LFrame ℝ) (h : Lammps.readFrame float src = .ok (f, rest)) :
    (∃ n, ColsLen n f.cols) ∧ f.box.length = 3 := by
  unfold Lammps.readFrame at h
  split at h
  · cases h
  split at h
  · cases h
  unfold Lammps.readNum at h
  split at h
  · cases h
  split at h
  · cases h
  unfold Lammps.readBox at h
  split at h
  · cases h
  split at h
  · cases h
  split at h
  · cases h
  split at h
  · cases h
  unfold Lammps.readAtoms at h
  simp only at h
  split at h
  · cases h
  split at h
  · cases h
  split at h
  · cases h
  split at h
  · cases h
  next cols rest' hr =>
  simp only [Except.ok.injEq, Prod.mk.injEq] at h
  rw [← h.1]
  refine ⟨⟨_, colsLen_readRows float _ _ _ _ _ rest' _ cols ?_ ?_ hr⟩, rfl⟩
  · exact (colsLen_empty _ _ [] (fun h c hc => by simp [Dict.get?] at hc)).1
  · exact (colsLen_empty _ _ [] (fun h c hc => by simp [Dict.get?] at hc)).2.1

theorem parseFuel_cols (float : List Char → Option ℝ) : ∀ (fuel : Nat) (src : List Char),
    ∀ f ∈ (Lammps.parseFuel float fuel src).1, (∃ n, ColsLen n f.cols) ∧ f.box.length = 3 := by
  intro fuel
  induction fuel with
  | zero => intro src f hf; simp [Lammps.parseFuel] at hf
  | succ fuel ih =>
    intro src f hf
    rw [Lammps.parseFuel] at hf
    split at hf
    · simp at hf
    · split at hf
      · simp at hf
      · next g rest hr =>
        rcases List.mem_cons.1 hf with rfl | hf
        · exact readFrame_cols float src rest f hr
        · exact ih rest f hf

end Verif.Frame
