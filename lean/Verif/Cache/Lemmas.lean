import Mathlib.Data.List.Basic
import Mathlib.Tactic.Linarith
import Mathlib.Tactic.Ring
import Verif.Cache.Spec
/-!
# Helper lemmas for `WriteCache`
-/

namespace Verif.Cache

variable {ρ : Type}

theorem rows_set (f : File ρ) (g h : String) (l : List ρ) :
    rows (Dict.set f g l) h = if g = h then l else rows f h := by
  unfold rows
  rw [Dict.get?_set]
  split <;> rfl

theorem appended_append (a b : List (Op ρ)) : appended (a ++ b) = appended a ++ appended b := by
  induction a with
  | nil => rfl
  | cons o a ih => cases o <;> simp [appended, ih]

theorem runOps_append (a b : List (Op ρ)) (s : WriteCache ρ × File ρ) :
    runOps (a ++ b) s = match runOps a s with
      | (s', some e) => (s', some e)
      | (s', none) => runOps b s' := by
  induction a generalizing s with
  | nil => rfl
  | cons o a ih =>
    simp only [List.cons_append, runOps]
    cases h : o.run s with
    | mk s' e => cases e with
      | none => simp only; exact ih s'
      | some e => rfl

/-- What is known of a cache at any point: `base` is what the table held, `app` the items appended
so far. -/
structure Inv (g : String) (mult : Int) (base app : List ρ) (f0 : File ρ)
    (s : WriteCache ρ × File ρ) : Prop where
  hasFile : s.1.hasFile = true
  group : s.1.group = some g
  hmult : s.1.multiplier = mult
  dflt : s.1.cacheDefault = 8192
  bound : 0 < mult → (s.1.cache.length : Int) ≤ mult * 8192
  other : ∀ h, h ≠ g → Dict.get? s.2 h = Dict.get? f0 h
  content : (s.1.toAppend = true ∧ rows s.2 g ++ s.1.cache = base ++ app) ∨
    (s.1.toAppend = false ∧ s.2 = f0 ∧ s.1.cache = app ∧ base = [])

/-- After the first append the content of the cache is never wrong. -/
theorem inv_append (g : String) (mult : Int) (base app : List ρ) (f0 : File ρ)
    (s : WriteCache ρ × File ρ) (x : ρ) (h : Inv g mult base app f0 s) :
    ∃ s', s.1.append s.2 x = (s', none) ∧ Inv g mult base (app ++ [x]) f0 s' ∧ s'.1.cache ≠ [] := by
  obtain ⟨c, f⟩ := s
  have h1 := h.hasFile; have h2 := h.group; have h3 := h.hmult; have h4 := h.dflt
  have hsz : c.size = mult * 8192 := by unfold WriteCache.size; rw [h3, h4]
  simp only at h1 h2 h3 h4
  unfold WriteCache.append
  by_cases hc : (!c.cache.isEmpty && decide ((c.cache.length : Int) = c.size)) = true
  · simp only [hc, if_true, WriteCache.flush, h1, h2, Bool.true_eq_false, if_false]
    refine ⟨_, rfl, ⟨rfl, rfl, h3, h4, ?_, ?_, ?_⟩, by simp⟩
    · intro hm; simp; linarith
    · intro k hk
      have := h.other k hk
      simp only at this ⊢
      unfold toHdfTable
      split
      · exact this
      · split <;> rw [Dict.get?_set, if_neg (fun e => hk e.symm)] <;> exact this
    · have hne : c.cache.isEmpty = false := by
        simp only [Bool.and_eq_true] at hc
        simpa using hc.1
      refine Or.inl ⟨rfl, ?_⟩
      simp only [toHdfTable, hne, List.nil_append]
      rcases h.content with ⟨ht, hcont⟩ | ⟨ht, _, hcont, hb⟩
      · simp only at ht hcont
        simp [ht, rows_set, ← List.append_assoc, hcont]
      · simp only at ht hcont
        simp [ht, rows_set, hcont, hb]
  · simp only [hc, Bool.false_eq_true, if_false]
    refine ⟨_, rfl, ⟨h1, h2, h3, h4, ?_, h.other, ?_⟩, by simp⟩
    · intro hm
      have hb := h.bound hm
      simp only [Bool.and_eq_true, Bool.not_eq_true', decide_eq_true_eq, not_and] at hc
      simp only [List.length_append, List.length_singleton, Nat.cast_add, Nat.cast_one] at hb ⊢
      by_cases he : c.cache.isEmpty = true
      · have : c.cache = [] := by simpa using he
        simp [this]; linarith
      · have := hc (by simpa using he)
        rw [hsz] at this
        omega
    · rcases h.content with ⟨ht, hcont⟩ | ⟨ht, hf, hcont, hb⟩
      · exact Or.inl ⟨ht, by simp only at hcont ⊢; rw [← List.append_assoc, hcont, List.append_assoc]⟩
      · exact Or.inr ⟨ht, hf, by simp only at hcont ⊢; rw [hcont], hb⟩

theorem inv_flush (g : String) (mult : Int) (base app : List ρ) (f0 : File ρ)
    (s : WriteCache ρ × File ρ) (h : Inv g mult base app f0 s)
    (hne : s.1.toAppend = true ∨ s.1.cache ≠ [] ∨ rows f0 g = []) :
    ∃ s', s.1.flush s.2 = (s', none) ∧ Inv g mult base app f0 s' ∧ s'.1.cache = [] ∧
      s'.1.toAppend = true := by
  obtain ⟨c, f⟩ := s
  have h1 := h.hasFile; have h2 := h.group
  simp only at h1 h2
  simp only [WriteCache.flush, h1, h2, Bool.true_eq_false, if_false]
  refine ⟨_, rfl, ⟨rfl, rfl, h.hmult, h.dflt, ?_, ?_, ?_⟩, rfl, rfl⟩
  · intro hm; simp; linarith
  · intro k hk
    have := h.other k hk
    simp only at this ⊢
    unfold toHdfTable
    split
    · exact this
    · split <;> rw [Dict.get?_set, if_neg (fun e => hk e.symm)] <;> exact this
  · refine Or.inl ⟨rfl, ?_⟩
    simp only [toHdfTable, List.append_nil]
    rcases h.content with ⟨ht, hcont⟩ | ⟨ht, hf, hcont, hb⟩
    · simp only at ht hcont
      by_cases he : c.cache.isEmpty = true
      · have : c.cache = [] := by simpa using he
        rw [this, List.append_nil] at hcont
        simp [he, hcont]
      · simp [he, ht, rows_set, hcont]
    · simp only at ht hcont hf
      by_cases he : c.cache.isEmpty = true
      · have hn : c.cache = [] := by simpa using he
        simp only at hne
        rcases hne with hne | hne | hne
        · simp [ht] at hne
        · exact absurd hn hne
        · simp [hf, hne, hb, ← hcont, hn]
      · rw [if_neg he]
        simp [ht, rows_set, hcont, hb]

/-- A flush that does not come first finds a nonempty cache or a cache already appending. -/
theorem inv_runOps (g : String) (mult : Int) (base : List ρ) (f0 : File ρ) :
    ∀ (ops : List (Op ρ)) (app : List ρ) (s : WriteCache ρ × File ρ), Inv g mult base app f0 s →
    (s.1.toAppend = true ∨ s.1.cache ≠ [] ∨ rows f0 g = []) →
    ∃ s', runOps ops s = (s', none) ∧ Inv g mult base (app ++ appended ops) f0 s' ∧
      (s'.1.toAppend = true ∨ s'.1.cache ≠ [] ∨ rows f0 g = []) := by
  intro ops
  induction ops with
  | nil => intro app s h hne; exact ⟨s, rfl, by simpa [appended] using h, hne⟩
  | cons o ops ih =>
    intro app s h hne
    cases o with
    | append x =>
      obtain ⟨s1, h1, h2, h3⟩ := inv_append g mult base app f0 s x h
      obtain ⟨s2, h4, h5, h6⟩ := ih _ s1 h2 (Or.inr (Or.inl h3))
      refine ⟨s2, by simp [runOps, Op.run, h1, h4], ?_, h6⟩
      simpa [appended] using h5
    | flush =>
      obtain ⟨s1, h1, h2, _, h3⟩ := inv_flush g mult base app f0 s h hne
      obtain ⟨s2, h4, h5, h6⟩ := ih _ s1 h2 (Or.inl h3)
      refine ⟨s2, by simp [runOps, Op.run, h1, h4], ?_, h6⟩
      simpa [appended] using h5

theorem inv_fresh (g : String) (mult : Int) (toAppend : Bool) (f0 : File ρ) :
    Inv g mult (if toAppend then rows f0 g else []) [] f0 (fresh g mult toAppend, f0) := by
  refine ⟨rfl, rfl, rfl, rfl, ?_, fun _ _ => rfl, ?_⟩
  · intro h; simp [fresh]; omega
  · cases toAppend with
    | true => exact Or.inl ⟨rfl, by simp [fresh]⟩
    | false => exact Or.inr ⟨rfl, rfl, rfl, by simp⟩

theorem len_append (c : WriteCache ρ) (f : File ρ) (x : ρ) (s : WriteCache ρ × File ρ)
    (h : c.append f x = (s, none)) : s.1.len = c.len + 1 := by
  unfold WriteCache.append at h
  split at h
  · rename_i hc
    simp only [Bool.and_eq_true, decide_eq_true_eq] at hc
    unfold WriteCache.flush at h
    split at h
    · rename_i h2
      split at h2
      · simp only [Prod.mk.injEq] at h2; simp [← h2.2] at h
      · split at h2
        · simp only [Prod.mk.injEq] at h2; simp [← h2.2] at h
        · simp at h2
    · rename_i c' f' h2
      split at h2
      · simp at h2
      · split at h2
        · simp at h2
        · simp only [Prod.mk.injEq, and_true] at h2 h
          rw [← h, ← h2.1]
          simp only [WriteCache.len, WriteCache.size, List.nil_append, List.length_singleton] at hc ⊢
          rw [hc.2]
          ring
  · simp only [Prod.mk.injEq, and_true] at h
    rw [← h]
    simp only [WriteCache.len, WriteCache.size, List.length_append, List.length_singleton]
    push_cast
    ring

end Verif.Cache
