import Verif.Cache.Props
/-!
# Exactly when a cache loses nothing and counts right, C21 to C23
-/

namespace Verif.Cache

variable {ρ : Type}

/-! ## C21 -/

/-- **C21, the exact condition.**  The table ends up with what belongs there iff the rows are to be
added to an existing table, or there are none to be replaced, or the first operation is an append. -/
theorem C21_exactly (g : String) (mult : Int) (toAppend : Bool) (f : File ρ) (ops : List (Op ρ)) :
    (∃ c f', runOps (ops ++ [.flush]) (fresh g mult toAppend, f) = ((c, f'), none) ∧
      rows f' g = (if toAppend then rows f g else []) ++ appended ops) ↔
    toAppend = true ∨ rows f g = [] ∨ StartsWithAppend ops := by
  constructor
  · rintro ⟨c, f', h1, h2⟩
    by_contra hcon
    simp only [not_or, Bool.not_eq_true] at hcon
    obtain ⟨rfl, hr, hs⟩ := hcon
    have hflush : (fresh g mult false : WriteCache ρ).flush f = ((fresh g mult true, f), none) := rfl
    have key : ∃ rest, ops ++ [.flush] = .flush :: rest ∧
        (∃ c'' f'', runOps rest (fresh g mult true, f) = ((c'', f''), none) ∧
          rows f'' g = rows f g ++ appended ops) := by
      cases ops with
      | nil => exact ⟨[], rfl, _, f, rfl, by simp [appended]⟩
      | cons o ops =>
        cases o with
        | append x => exact absurd ⟨x, ops, rfl⟩ hs
        | flush =>
          obtain ⟨c'', f'', e1, e2, _⟩ := C21_lossless_partial g mult true f ops (Or.inl rfl)
          exact ⟨_, rfl, c'', f'', e1, by simpa [appended] using e2⟩
    obtain ⟨rest, e1, c'', f'', e2, e3⟩ := key
    rw [e1] at h1
    simp only [runOps, Op.run, hflush] at h1
    rw [e2] at h1
    simp only [Prod.mk.injEq, and_true] at h1
    obtain ⟨_, rfl⟩ := h1
    rw [e3] at h2
    simp only [Bool.false_eq_true, if_false, List.nil_append] at h2
    exact hr (List.append_left_eq_self.1 h2)
  · intro h
    obtain ⟨c, f', h1, h2, _⟩ := C21_lossless_partial g mult toAppend f ops h
    exact ⟨c, f', h1, h2⟩

/-- The rows of an earlier run stay, whatever is appended after a flush of nothing. -/
example (items : List (Op Nat)) : ¬ ∃ c f', runOps (.flush :: items ++ [.flush])
    (fresh "d" 1 false, [("d", [7])]) = ((c, f'), none) ∧ rows f' "d" = [] ++ appended items := by
  have h := C21_exactly "d" 1 false [("d", [7])] (.flush :: items)
  have hn : ¬ (false = true ∨ rows [("d", [7])] "d" = [] ∨ StartsWithAppend (.flush :: items)) := by
    rintro (h | h | ⟨x, r, h⟩)
    · cases h
    · simp [rows, Dict.get?] at h
    · cases h
  exact fun hc => hn (h.1 hc)

/-! ## C22 -/

/-- **C22, the exact condition.**  At a point where the process may die, the stored rows are those that
belong in the table up to the cached ones (or the file is untouched) iff the rows are to be added to an
existing table, or there are none to be replaced, or the first operation is an append, or nothing has
been written yet.  In every other case the old rows are still there, in front of the new ones. -/
theorem C22_exactly (g : String) (mult : Int) (toAppend : Bool) (f f' : File ρ) (ops : List (Op ρ))
    (c : WriteCache ρ) (hrun : runOps ops (fresh g mult toAppend, f) = ((c, f'), none)) :
    ((rows f' g ++ c.cache = (if toAppend then rows f g else []) ++ appended ops ∨
        (f' = f ∧ c.cache = appended ops)) ↔
      (toAppend = true ∨ rows f g = [] ∨ StartsWithAppend ops ∨ (f' = f ∧ c.cache = appended ops))) ∧
    (¬ (toAppend = true ∨ rows f g = [] ∨ StartsWithAppend ops ∨ (f' = f ∧ c.cache = appended ops)) →
      rows f' g ++ c.cache = rows f g ++ appended ops) := by
  have hfree : (toAppend = true ∨ rows f g = [] ∨ StartsWithAppend ops) →
      (rows f' g ++ c.cache = (if toAppend then rows f g else []) ++ appended ops ∨
        (f' = f ∧ c.cache = appended ops)) := by
    intro h
    obtain ⟨c1, f1, h1, h2, _⟩ := C22_crash_prefix_partial g mult toAppend f ops [] (by simpa using h)
    rw [hrun] at h1
    simp only [Prod.mk.injEq, and_true] at h1
    obtain ⟨rfl, rfl⟩ := h1
    exact h2
  have hother : ¬ (toAppend = true ∨ rows f g = [] ∨ StartsWithAppend ops ∨
      (f' = f ∧ c.cache = appended ops)) → rows f' g ++ c.cache = rows f g ++ appended ops := by
    intro hcon
    simp only [not_or, Bool.not_eq_true] at hcon
    obtain ⟨rfl, _, hs, hn⟩ := hcon
    cases ops with
    | nil =>
      simp only [runOps, Prod.mk.injEq, and_true] at hrun
      exact absurd ⟨hrun.2.symm, by rw [← hrun.1]; rfl⟩ hn
    | cons o ops =>
      cases o with
      | append x => exact absurd ⟨x, ops, rfl⟩ hs
      | flush =>
        have hflush : (fresh g mult false : WriteCache ρ).flush f = ((fresh g mult true, f), none) := rfl
        simp only [runOps, Op.run, hflush] at hrun
        obtain ⟨c1, f1, h1, h2, _⟩ := C22_crash_prefix_partial g mult true f ops [] (Or.inl rfl)
        rw [hrun] at h1
        simp only [Prod.mk.injEq, and_true] at h1
        obtain ⟨rfl, rfl⟩ := h1
        rcases h2 with h2 | h2
        · simpa [appended] using h2
        · exact absurd ⟨h2.1, by simpa [appended] using h2.2⟩ hn
  refine ⟨⟨fun h => ?_, fun h => ?_⟩, hother⟩
  · by_contra hcon
    have ho := hother hcon
    simp only [not_or, Bool.not_eq_true] at hcon
    obtain ⟨rfl, hr, hs, hn⟩ := hcon
    rcases h with h | h
    · rw [ho] at h
      simp only [Bool.false_eq_true, if_false, List.nil_append] at h
      exact hr (List.append_left_eq_self.1 h)
    · exact hn h
  · rcases h with h | h | h | h
    · exact hfree (Or.inl h)
    · exact hfree (Or.inr (Or.inl h))
    · exact hfree (Or.inr (Or.inr h))
    · exact Or.inr h

/-- The old row 7 in front of the new one. -/
example : rows ([("d", [7, 1])] : File Nat) "d" ++ [] = rows [("d", [7])] "d" ++ appended [.flush, .append 1, .flush] :=
  (C22_exactly "d" 1 false [("d", [7])] [("d", [7, 1])] [.flush, .append 1, .flush]
    ⟨true, some "d", 1, true, [], 8192, 0⟩ rfl).2 (by
      rintro (h | h | ⟨x, r, h⟩ | ⟨h, -⟩)
      · cases h
      · simp [rows, Dict.get?] at h
      · cases h
      · simp at h)

/-! ## C23 -/

/-- Somewhere a flush comes after an append. -/
def FlushAfterAppend (ops : List (Op ρ)) : Prop :=
  ∃ a x b r, ops = a ++ .append x :: b ++ .flush :: r

/-- A flush takes the waiting rows off the length. -/
theorem len_flush (c : WriteCache ρ) (f : File ρ) (s : WriteCache ρ × File ρ)
    (h : c.flush f = (s, none)) : s.1.len + c.cache.length = c.len ∧ s.1.cache = [] := by
  unfold WriteCache.flush at h
  split at h
  · simp at h
  · split at h
    · simp at h
    · simp only [Prod.mk.injEq, and_true] at h
      subst h
      simp [WriteCache.len, WriteCache.size]

/-- After an append something is waiting. -/
theorem cache_append (c : WriteCache ρ) (f : File ρ) (x : ρ) (s : WriteCache ρ × File ρ)
    (h : c.append f x = (s, none)) : s.1.cache ≠ [] := by
  unfold WriteCache.append at h
  split at h
  · split at h
    · simp at h
    · simp only [Prod.mk.injEq, and_true] at h
      subst h
      simp
  · simp only [Prod.mk.injEq, and_true] at h
    subst h
    simp

/-- The length never exceeds the number of items; it stays behind once waiting rows are flushed. -/
theorem len_le : ∀ (ops : List (Op ρ)) (s s' : WriteCache ρ × File ρ), runOps ops s = (s', none) →
    s'.1.len ≤ s.1.len + (appended ops).length ∧
    (s.1.cache ≠ [] → (∃ a r, ops = a ++ .flush :: r) →
      s'.1.len < s.1.len + (appended ops).length) ∧
    (FlushAfterAppend ops → s'.1.len < s.1.len + (appended ops).length) ∧
    (s.1.cache = [] → ¬ FlushAfterAppend ops → s'.1.len = s.1.len + (appended ops).length) ∧
    ((¬ ∃ a r, ops = a ++ .flush :: r) → s'.1.len = s.1.len + (appended ops).length) := by
  intro ops
  induction ops with
  | nil =>
    intro s s' h
    simp only [runOps, Prod.mk.injEq, and_true] at h
    subst h
    simp [appended, FlushAfterAppend]
  | cons o ops ih =>
    intro s s' h
    obtain ⟨c, f⟩ := s
    simp only [runOps] at h
    cases h1 : o.run (c, f) with
    | mk s1 e =>
      rw [h1] at h
      cases e with
      | some e => simp at h
      | none =>
        obtain ⟨i1, i2, i3, i4, i5⟩ := ih s1 s' h
        cases o with
        | append x =>
          have l1 := len_append c f x s1 h1
          have l2 := cache_append c f x s1 h1
          simp only [appended, List.length_cons]
          push_cast
          refine ⟨by omega, ?_, ?_, ?_, ?_⟩
          · rintro _ ⟨a, r, e⟩
            cases a with
            | nil => cases e
            | cons o' a =>
              simp only [List.cons_append, List.cons.injEq] at e
              have := i2 l2 ⟨a, r, e.2⟩
              omega
          · rintro ⟨a, y, b, r, e⟩
            cases a with
            | nil =>
              simp only [List.nil_append, List.cons_append, List.cons.injEq] at e
              have := i2 l2 ⟨b, r, e.2⟩
              omega
            | cons o' a =>
              simp only [List.cons_append, List.cons.injEq] at e
              have := i2 l2 ⟨a ++ .append y :: b, r, by simpa using e.2⟩
              omega
          · intro _ hn
            have := i5 (by
              rintro ⟨a, r, e⟩
              exact hn ⟨[], x, a, r, by simp [e]⟩)
            omega
          · intro hn
            have := i5 (by
              rintro ⟨a, r, e⟩
              exact hn ⟨.append x :: a, r, by simp [e]⟩)
            omega
        | flush =>
          obtain ⟨l1, l2⟩ := len_flush c f s1 h1
          simp only [appended]
          refine ⟨by omega, ?_, ?_, ?_, ?_⟩
          · intro hc _
            have : 0 < c.cache.length := List.length_pos_iff.2 hc
            omega
          · rintro ⟨a, y, b, r, e⟩
            cases a with
            | nil => simp at e
            | cons o' a =>
              simp only [List.cons_append, List.cons.injEq] at e
              have := i3 ⟨a, y, b, r, by simpa using e.2⟩
              omega
          · intro hc hn
            have := i4 l2 (by
              rintro ⟨a, y, b, r, e⟩
              exact hn ⟨.flush :: a, y, b, r, by simp [e]⟩)
            rw [hc] at l1
            simp at l1
            omega
          · intro hn
            exact absurd ⟨[], ops, rfl⟩ hn

/-- **C23, the exact condition.**  After any run of a cache, of whatever size, `len` is the number of
items appended iff no flush came after an append; otherwise it is smaller. -/
theorem C23_exactly (g : String) (mult : Int) (toAppend : Bool) (f : File ρ) (ops : List (Op ρ))
    (c : WriteCache ρ) (f' : File ρ)
    (h : runOps ops (fresh g mult toAppend, f) = ((c, f'), none)) :
    (c.len = (appended ops).length ↔ ¬ FlushAfterAppend ops) ∧ c.len ≤ (appended ops).length := by
  obtain ⟨h1, _, h3, h4, _⟩ := len_le ops _ _ h
  have h0 : (fresh g mult toAppend : WriteCache ρ).len = 0 := by
    simp [fresh, WriteCache.len, WriteCache.size]
  simp only [h0, zero_add] at h1 h3 h4
  refine ⟨⟨fun he hf => ?_, fun hn => h4 rfl hn⟩, h1⟩
  have := h3 hf
  omega

/-- An early flush does no harm to the length, a later one does. -/
example : (∃ c f', runOps [.flush, .append 1, .append 2] (fresh "d" 1 false, []) = ((c, f'), none) ∧
      c.len = 2) ∧
    (∃ c f', runOps [.append 1, .flush, .append 2] (fresh "d" 1 false, []) = ((c, f'), none) ∧
      c.len = 1) :=
  ⟨⟨_, _, rfl, rfl⟩, _, _, rfl, rfl⟩

end Verif.Cache
