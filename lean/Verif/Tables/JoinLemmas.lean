import Verif.RelaxTime.Lemmas
import Verif.Tables.Lemmas
/-!
# Lemmas for C53 and C54
-/

namespace Verif.Tables

open Verif.RelaxTime

theorem pyAt_error {α : Type} {l : List α} {i : ℤ} {e : PyErr} (h : pyAt l i = .error e) :
    e = .indexError := by
  unfold pyAt at h
  simp only at h
  generalize (if i < 0 then i + (l.length : ℤ) else i) = j at h
  split at h
  · split at h
    · cases h
    · cases h; rfl
  · cases h; rfl

theorem threshold_error {signals : Bool} {time : List ℝ} {value : List (Option ℝ)} {thr : ℝ}
    {decay : Bool} {e : PyErr} (h : thresholdRelaxation signals time value thr decay = .error e) :
    e = .valueError ∨ e = .indexError := by
  unfold thresholdRelaxation at h
  split at h
  · cases h
  split at h
  · rename_i h1
    cases h
    generalize (value.map (fun v => if decay then nanLt v thr else nanGt v thr)) = l at h1
    unfold argmaxBool at h1
    split at h1
    · cases h1; exact .inl rfl
    · cases h1
  split at h
  · rename_i h1; cases h; exact .inr (pyAt_error h1)
  split at h
  · rename_i h1; cases h; exact .inr (pyAt_error h1)
  · cases h

theorem maxTime_error {time : List ℝ} {value : List (Option ℝ)} {e : PyErr}
    (h : maxTimeRelaxation time value = .error e) : e = .runtimeError ∨ e = .indexError := by
  unfold maxTimeRelaxation at h
  split at h
  · cases h; exact .inl rfl
  split at h
  · cases h
  · right
    have bnd : ∀ {α β : Type} {x : Except PyErr α} {f : α → Except PyErr β},
        (∀ e, x = .error e → e = .indexError) → (∀ a e, f a = .error e → e = .indexError) →
        ∀ e, (x >>= f) = .error e → e = .indexError := by
      intro α β x f hx hf e h
      cases x with
      | error e' => exact hx e (by cases h; rfl)
      | ok a => exact hf a e h
    have pt : ∀ {α : Type} (l : List α) (i : ℤ) (e : PyErr), pyAt l i = .error e → e = .indexError :=
      fun l i e h => pyAt_error h
    have two : ∀ {α β : Type} (l : List α) (i j : ℤ) (f : α → α → β) (e : PyErr),
        (do let a ← pyAt l i; let b ← pyAt l j; pure (f a b)) = .error e → e = .indexError := by
      intro α β l i j f
      exact bnd (pt _ _) (fun a => bnd (pt _ _) (fun b e h => by cases h))
    simp only at h
    split at h
    · exact bnd (two _ _ _ _) (fun a => bnd (pt _ _) (fun b e h => by cases h)) e h
    · split at h
      · exact bnd (two _ _ _ _) (fun a => bnd (pt _ _) (fun b e h => by cases h)) e h
      · exact bnd (two _ _ _ (fun a b => (a - b) / 2)) (fun a => bnd (pt _ _) (fun b e h => by cases h)) e h

theorem diffusion_error {signals : Bool} {fit : List (ℝ × ℝ) → Except PyErr Fit} {time : List ℝ}
    {value : List (Option ℝ)} {d : ℕ} {e : PyErr}
    (h : diffusionConstant signals fit time value d = .error e) : e ≠ .typeError := by
  unfold diffusionConstant at h
  split at h
  · cases h
  split at h
  · cases h
  split at h
  · cases h; simp
  split at h
  · cases h
  · rename_i h1 h2; cases h; exact fun he => h1 he
  split at h
  · cases h
  · cases h; simp

theorem compute_ne_typeError (signals : Bool) (fit : List (ℝ × ℝ) → Except PyErr Fit)
    (time : List ℝ) (value : List (Option ℝ)) (c : String) :
    computeRelaxationValue signals fit time value c ≠ .error .typeError := by
  intro h
  unfold computeRelaxationValue at h
  split at h
  · cases h
  split at h
  · exact diffusion_error h rfl
  split at h
  · exact diffusion_error h rfl
  split at h
  · rcases threshold_error h with h | h <;> cases h
  split at h
  · rcases maxTime_error h with h | h <;> cases h
  · rcases threshold_error h with h | h <;> cases h

theorem threshold_ok (signals : Bool) {time : List ℝ} {value : List (Option ℝ)}
    (hl : time.length = value.length) (hne : value ≠ []) (thr : ℝ) (decay : Bool) :
    ∃ r, thresholdRelaxation signals time value thr decay = .ok r := by
  by_cases hs : signals = true → none ∉ value
  · have hpos := List.length_pos_iff.2 hne
    obtain ⟨i, hi, hix⟩ : ∃ i, i < value.length ∧
        argmaxBool (flags thr decay value) = .ok i := by
      unfold argmaxBool
      have hlen : (flags thr decay value).length = value.length := by simp [flags]
      rw [if_neg (by omega)]
      refine ⟨_, ?_, rfl⟩
      split
      · rename_i h
        rw [← hlen]
        exact List.findIdx_lt_length_of_exists ⟨true, h, rfl⟩
      · exact hpos
    rw [threshold_eq hs, hix]
    simp only
    have hget : ∀ j (hj : j < time.length), time[j]? = some time[j] := fun j hj =>
      List.getElem?_eq_getElem hj
    rw [pyAt_nat (hget i (by omega))]
    cases i with
    | zero =>
      have hne' : time ≠ [] := by rw [← List.length_pos_iff]; omega
      rw [pyAt_last (List.getLast?_eq_some_getLast hne')]
      exact ⟨_, rfl⟩
    | succ i =>
      rw [pyAt_pred (hget i (by omega))]
      exact ⟨_, rfl⟩
  · rw [Classical.not_imp, not_not] at hs
    unfold thresholdRelaxation
    rw [if_pos]
    · exact ⟨_, rfl⟩
    · simp only [hs.1, Bool.true_and, List.any_eq_true]
      exact ⟨none, hs.2, rfl⟩

theorem series_ne_typeError (signals : Bool) (fit : List (ℝ × ℝ) → Except PyErr Fit)
    (rows : List Row) (c : String) : seriesRelaxationValue signals fit rows c ≠ .error .typeError := by
  intro h
  unfold seriesRelaxationValue at h
  split at h
  · rename_i h1; cases h; exact compute_ne_typeError _ _ _ _ _ h1
  · cases h

theorem column_ok {signals : Bool} {fit : List (ℝ × ℝ) → Except PyErr Fit} {df : Table} {c : String}
    {ks : List Key} {col : List (Key × Option ℝ)} (h : relaxationColumn signals fit df c ks = .ok col) :
    (∀ e ∈ col, e.1 ∈ ks ∧ seriesRelaxationValue signals fit (df.group e.1) c = .ok e.2) ∧
      ∀ k ∈ ks, ∃ e ∈ col, e.1 = k := by
  induction ks generalizing col with
  | nil =>
    obtain rfl := (Except.ok.inj h).symm
    simp
  | cons k ks ih =>
    unfold relaxationColumn at h
    split at h
    · cases h
    · rename_i v hv
      split at h
      · cases h
      · rename_i l hl
        obtain rfl := (Except.ok.inj h).symm
        obtain ⟨h1, h2⟩ := ih hl
        constructor
        · intro e he
          rcases List.mem_cons.1 he with rfl | he
          · exact ⟨List.mem_cons_self, hv⟩
          · exact ⟨List.mem_cons_of_mem _ (h1 e he).1, (h1 e he).2⟩
        · intro k' hk'
          rcases List.mem_cons.1 hk' with rfl | hk'
          · exact ⟨_, List.mem_cons_self, rfl⟩
          · obtain ⟨e, he, hee⟩ := h2 k' hk'
            exact ⟨e, List.mem_cons_of_mem _ he, hee⟩

theorem column_of {signals : Bool} {fit : List (ℝ × ℝ) → Except PyErr Fit} {df : Table} {c : String}
    {ks : List Key} (h : ∀ k ∈ ks, ∃ v, seriesRelaxationValue signals fit (df.group k) c = .ok v) :
    ∃ col, relaxationColumn signals fit df c ks = .ok col := by
  induction ks with
  | nil => exact ⟨[], rfl⟩
  | cons k ks ih =>
    obtain ⟨v, hv⟩ := h k List.mem_cons_self
    obtain ⟨col, hcol⟩ := ih (fun k hk => h k (List.mem_cons_of_mem _ hk))
    unfold relaxationColumn
    rw [hv]
    simp only
    rw [hcol]
    exact ⟨_, rfl⟩

theorem column_ne_typeError {signals : Bool} {fit : List (ℝ × ℝ) → Except PyErr Fit} {df : Table}
    {c : String} {ks : List Key} : relaxationColumn signals fit df c ks ≠ .error .typeError := by
  induction ks with
  | nil => intro h; cases h
  | cons k ks ih =>
    intro h
    unfold relaxationColumn at h
    split at h
    · rename_i h1; cases h; exact series_ne_typeError _ _ _ _ h1
    · split at h
      · rename_i h1; cases h; exact ih h1
      · cases h

theorem columns_ok {signals : Bool} {fit : List (ℝ × ℝ) → Except PyErr Fit} {df : Table}
    {cs : List String} {cols : List (String × List (Key × Option ℝ))}
    (h : relaxationColumns signals fit df cs = .ok cols) :
    List.Forall₂ (fun c col => col.1 = c ∧ relaxationColumn signals fit df c df.keys = .ok col.2)
      cs cols := by
  induction cs generalizing cols with
  | nil =>
    obtain rfl := (Except.ok.inj h).symm
    exact .nil
  | cons c cs ih =>
    unfold relaxationColumns at h
    split at h
    · rename_i h1; exact absurd h1 column_ne_typeError
    · cases h
    · rename_i col hcol
      split at h
      · cases h
      · rename_i l hl
        obtain rfl := (Except.ok.inj h).symm
        exact .cons ⟨rfl, hcol⟩ (ih hl)

theorem columns_of {signals : Bool} {fit : List (ℝ × ℝ) → Except PyErr Fit} {df : Table}
    {cs : List String} (h : ∀ c ∈ cs, ∃ col, relaxationColumn signals fit df c df.keys = .ok col) :
    ∃ cols, relaxationColumns signals fit df cs = .ok cols := by
  induction cs with
  | nil => exact ⟨[], rfl⟩
  | cons c cs ih =>
    obtain ⟨col, hcol⟩ := h c List.mem_cons_self
    obtain ⟨cols, hcols⟩ := ih (fun c hc => h c (List.mem_cons_of_mem _ hc))
    unfold relaxationColumns
    rw [hcol]
    simp only
    rw [hcols]
    exact ⟨_, rfl⟩

/-- The entry of one column in the joined table. -/
theorem joined_eq {signals : Bool} {fit : List (ℝ × ℝ) → Except PyErr Fit} {df : Table} {c : String}
    {col : List (Key × Option ℝ)} (h : relaxationColumn signals fit df c df.keys = .ok col) (k : Key) :
    joined k (c, col) = (c, if k ∈ df.keys then
      (match seriesRelaxationValue signals fit (df.group k) c with
        | .ok v => v
        | .error _ => none) else none) := by
  classical
  obtain ⟨h1, h2⟩ := column_ok h
  unfold joined
  simp only
  split
  · rename_i e he
    have hk : e.1 = k := by simpa using List.find?_some he
    obtain ⟨g1, g2⟩ := h1 e (List.mem_of_find?_eq_some he)
    rw [hk] at g1 g2
    rw [if_pos g1, g2]
  · rename_i hn
    rw [List.find?_eq_none] at hn
    rw [if_neg]
    intro hk
    obtain ⟨e, he, hek⟩ := h2 k hk
    exact hn e he (by simpa using hek)

end Verif.Tables
