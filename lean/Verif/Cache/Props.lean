import Mathlib.Tactic.Ring
import Verif.Cache.Lemmas
/-!
# Properties of `WriteCache`, C21-C23 and C78
-/

namespace Verif.Cache

variable {ρ : Type}

/-! ## C21 -/

/-- The property as stated. -/
def Lossless (ρ : Type) : Prop :=
  ∀ (g : String) (mult : Int) (toAppend : Bool) (f : File ρ) (ops : List (Op ρ)),
    ∃ c f', runOps (ops ++ [.flush]) (fresh g mult toAppend, f) = ((c, f'), none) ∧
      rows f' g = (if toAppend then rows f g else []) ++ appended ops

/-- **C21 is false.**  A flush before anything is appended writes nothing (pandas skips empty frames)
but switches to appending, so rows of an earlier run stay in the table in front of the new ones. -/
theorem C21_lossless_refuted : ¬ Lossless Nat := by
  intro h
  obtain ⟨c, f', h1, h2⟩ := h "dynamics" 1 false [("dynamics", [7])] [.flush, .append 1]
  have : runOps ([.flush, .append 1] ++ [.flush]) (fresh "dynamics" 1 false, [("dynamics", [7])]) =
      ((⟨true, some "dynamics", 1, true, [], 8192, 0⟩, [("dynamics", [7, 1])]), none) := by
    rfl
  rw [this] at h1
  simp only [Prod.mk.injEq] at h1
  rw [← h1.1.2] at h2
  simp [rows, Dict.get?, appended] at h2

/-- **C21, under the condition it needs.**  Missing for the full statement: the case that the first
operation is a flush while the table already has rows that should be replaced.  Otherwise any
sequence of operations that ends with a flush stores exactly the appended items in order, after the
earlier rows when appending, and touches no other table. -/
theorem C21_lossless_partial (g : String) (mult : Int) (toAppend : Bool) (f : File ρ)
    (ops : List (Op ρ)) (h : toAppend = true ∨ rows f g = [] ∨ StartsWithAppend ops) :
    ∃ c f', runOps (ops ++ [.flush]) (fresh g mult toAppend, f) = ((c, f'), none) ∧
      rows f' g = (if toAppend then rows f g else []) ++ appended ops ∧
      ∀ g', g' ≠ g → Dict.get? f' g' = Dict.get? f g' := by
  have key : ∃ s', runOps (ops ++ [.flush]) (fresh g mult toAppend, f) = (s', none) ∧
      Inv g mult (if toAppend then rows f g else []) (appended ops) f s' ∧ s'.1.cache = [] ∧
      s'.1.toAppend = true := by
    have hstart : ∃ s1, runOps ops (fresh g mult toAppend, f) = (s1, none) ∧
        Inv g mult (if toAppend then rows f g else []) (appended ops) f s1 ∧
        (s1.1.toAppend = true ∨ s1.1.cache ≠ [] ∨ rows f g = []) := by
      have hi := inv_fresh g mult toAppend f
      rcases h with h | h | ⟨x, rest, rfl⟩
      · obtain ⟨s1, a, b, c⟩ := inv_runOps g mult _ f ops [] _ hi (Or.inl h)
        exact ⟨s1, a, by simpa using b, c⟩
      · obtain ⟨s1, a, b, c⟩ := inv_runOps g mult _ f ops [] _ hi (Or.inr (Or.inr h))
        exact ⟨s1, a, by simpa using b, c⟩
      · obtain ⟨s0, a0, b0, c0⟩ := inv_append g mult _ [] f _ x hi
        obtain ⟨s1, a, b, c⟩ := inv_runOps g mult _ f rest _ s0 b0 (Or.inr (Or.inl c0))
        exact ⟨s1, by simp only [runOps, Op.run, a0]; exact a, by simpa [appended] using b, c⟩
    obtain ⟨s1, a, b, c⟩ := hstart
    obtain ⟨s2, d, e, f1, f2⟩ := inv_flush g mult _ _ f s1 b c
    exact ⟨s2, by rw [runOps_append, a]; simp [runOps, Op.run, d], e, f1, f2⟩
  obtain ⟨⟨c, f'⟩, h1, h2, h3, h4⟩ := key
  refine ⟨c, f', h1, ?_, h2.other⟩
  rcases h2.content with ⟨_, h5⟩ | ⟨h5, _⟩
  · simp only at h3 h5
    rw [h3, List.append_nil] at h5
    exact h5
  · exact absurd (h4.symm.trans h5) (by decide)

/-- Three appends with an explicit flush in between, replacing an old table. -/
example : (runOps ([.append 1, .flush, .append 2, .append 3] ++ [.flush])
    (fresh "dynamics" 1 false, [("dynamics", [7, 8]), ("other", [9])])).1.2 =
    [("dynamics", [1, 2, 3]), ("other", [9])] := by rfl

/-- The constructor makes the caches this is about. -/
theorem C21_constructor (g : String) (mult : Int) (toAppend : Bool) :
    WriteCache.new true (some g) mult toAppend = .ok (fresh g mult toAppend : WriteCache ρ) := rfl

/-! ## C22 -/

/-- The property as stated: once something has been flushed, the table is a prefix of the rows that
belong there and lacks only the cached ones. -/
def CrashPrefix (ρ : Type) : Prop :=
  ∀ (g : String) (mult : Int) (toAppend : Bool) (f : File ρ) (ops : List (Op ρ)),
    ∃ c f', runOps ops (fresh g mult toAppend, f) = ((c, f'), none) ∧
      (rows f' g ++ c.cache = (if toAppend then rows f g else []) ++ appended ops ∨
        (f' = f ∧ c.cache = appended ops)) ∧ (c.cache.length : Int) ≤ mult * 8192

/-- **C22 is false** in the case found for C21, a flush before anything is appended to a cache that
should replace a table. -/
theorem C22_crash_prefix_refuted : ¬ CrashPrefix Nat := by
  intro h
  obtain ⟨c, f', h1, h2, _⟩ := h "d" 1 false [("d", [7])] [.flush, .append 1, .flush]
  have : runOps [.flush, .append 1, .flush] (fresh "d" 1 false, [("d", [7])]) =
      ((⟨true, some "d", 1, true, [], 8192, 0⟩, [("d", [7, 1])]), none) := by
    rfl
  rw [this] at h1
  simp only [Prod.mk.injEq, and_true] at h1
  obtain ⟨rfl, rfl⟩ := h1
  simp [rows, Dict.get?, appended] at h2

/-- The bound is false as well for a multiplier of 0, which the code takes for "no limit". -/
theorem C22_bound_refuted : ¬ (∀ (mult : Int) (ops : List (Op Nat)) (c : WriteCache Nat)
    (f' : File Nat), runOps ops (fresh "d" mult false, []) = ((c, f'), none) →
    (c.cache.length : Int) ≤ mult * 8192) := by
  intro h
  have := h 0 [.append 1] ⟨true, some "d", 0, false, [1], 8192, 0⟩ [] rfl
  simp at this

/-- **C22, under the conditions it needs** (missing: the runs of the two refutations).  At every point of every run which begins with an append (or finds no table to replace,
or appends to it) the stored rows followed by the cached ones are everything appended so far, so a
crash loses a suffix only; until the first flush the file is as it was.  With a positive multiplier
at most `multiplier * 8192` rows are cached. -/
theorem C22_crash_prefix_partial (g : String) (mult : Int) (toAppend : Bool) (f : File ρ)
    (ops more : List (Op ρ))
    (h : toAppend = true ∨ rows f g = [] ∨ StartsWithAppend (ops ++ more)) :
    ∃ c f', runOps ops (fresh g mult toAppend, f) = ((c, f'), none) ∧
      (rows f' g ++ c.cache = (if toAppend then rows f g else []) ++ appended ops ∨
        (f' = f ∧ c.cache = appended ops)) ∧
      (0 < mult → (c.cache.length : Int) ≤ mult * 8192) ∧
      ∀ g', g' ≠ g → Dict.get? f' g' = Dict.get? f g' := by
  have hi := inv_fresh g mult toAppend f
  have hrun : ∃ s1, runOps ops (fresh g mult toAppend, f) = (s1, none) ∧
      Inv g mult (if toAppend then rows f g else []) (appended ops) f s1 := by
    rcases h with h | h | ⟨x, rest, he⟩
    · obtain ⟨s1, a, b, _⟩ := inv_runOps g mult _ f ops [] _ hi (Or.inl h)
      exact ⟨s1, a, by simpa using b⟩
    · obtain ⟨s1, a, b, _⟩ := inv_runOps g mult _ f ops [] _ hi (Or.inr (Or.inr h))
      exact ⟨s1, a, by simpa using b⟩
    · cases ops with
      | nil => exact ⟨_, rfl, hi⟩
      | cons o ops =>
        simp only [List.cons_append, List.cons.injEq] at he
        obtain ⟨rfl, _⟩ := he
        obtain ⟨s0, a0, b0, c0⟩ := inv_append g mult _ [] f _ x hi
        obtain ⟨s1, a, b, _⟩ := inv_runOps g mult _ f ops _ s0 b0 (Or.inr (Or.inl c0))
        exact ⟨s1, by simp only [runOps, Op.run, a0]; exact a, by simpa [appended] using b⟩
  obtain ⟨⟨c, f'⟩, h1, h2⟩ := hrun
  refine ⟨c, f', h1, ?_, h2.bound, h2.other⟩
  rcases h2.content with ⟨_, h3⟩ | ⟨_, h3, h4, _⟩
  · exact Or.inl h3
  · exact Or.inr ⟨h3, h4⟩

/-- A crash after the third append: two rows stored, one lost. -/
example : runOps [.append 1, .append 2, .flush, .append 3] (fresh "d" 1 false, [("d", [7])]) =
    ((⟨true, some "d", 1, true, [3], 8192, 0⟩, [("d", [1, 2])]), none) := by rfl

/-! ## C23 -/

/-- The property as stated. -/
def LenCounts (ρ : Type) : Prop :=
  ∀ (g : String) (mult : Int) (toAppend : Bool) (f : File ρ) (ops : List (Op ρ)) (c : WriteCache ρ)
    (f' : File ρ), runOps ops (fresh g mult toAppend, f) = ((c, f'), none) →
    c.len = (appended ops).length

/-- **C23 is false**: after an explicit flush the rows written are forgotten. -/
theorem C23_len_refuted : ¬ LenCounts Nat := by
  intro h
  have := h "d" 1 false [] [.append 1, .flush] ⟨true, some "d", 1, true, [], 8192, 0⟩
    [("d", [1])] rfl
  simp [WriteCache.len, WriteCache.size, appended] at this

/-- **C23, the part that holds.**  Missing for the full statement: explicit calls of `flush`.  With
appends only (whatever the cache size, and with the flushes that append makes on its own) `len` is
the number of items appended. -/
theorem C23_len_partial (items : List ρ) : ∀ (c : WriteCache ρ) (f : File ρ) (c' : WriteCache ρ)
    (f' : File ρ), runOps (items.map .append) (c, f) = ((c', f'), none) →
    c'.len = c.len + items.length := by
  induction items with
  | nil =>
    intro c f c' f' h
    simp only [List.map_nil, runOps, Prod.mk.injEq, and_true] at h
    simp [h.1]
  | cons x items ih =>
    intro c f c' f' h
    simp only [List.map_cons, runOps, Op.run] at h
    cases h1 : c.append f x with
    | mk s e =>
      cases e with
      | some e => simp [h1] at h
      | none =>
        rw [h1] at h
        obtain ⟨c1, f1⟩ := s
        have h2 := ih c1 f1 c' f' h
        have h3 := len_append c f x _ h1
        simp only at h3
        rw [h2, h3, List.length_cons]
        push_cast
        ring

/-- A fresh cache has length 0. -/
example : (fresh "d" 3 false : WriteCache Nat).len = 0 := by rfl

/-- With a cache of size 2 the third append flushes, and the length is still right. -/
example : (runOps [.append 1, .append 2, .append 3]
    ((⟨true, some "d", 1, false, [], 2, 0⟩ : WriteCache Nat), [])) =
    ((⟨true, some "d", 1, true, [3], 2, 1⟩, [("d", [1, 2])]), none) := by rfl

/-! ## C78 -/

/-- The property as stated: a group of `None` is refused with ValueError when constructing. -/
def GroupRefused (ρ : Type) : Prop :=
  ∀ (hasFile : Bool) (mult : Int) (toAppend : Bool),
    (WriteCache.new hasFile none mult toAppend : Except PyErr (WriteCache ρ)) = .error .valueError

/-- **C78 is false**: the check is in a method with a misspelt name and never runs. -/
theorem C78_group_none_refuted : ¬ GroupRefused Nat := by
  intro h
  have := h true 1 false
  simp [WriteCache.new] at this

/-- **C78, what holds.**  Missing for the full statement: the refusal comes only at the first flush,
as AssertionError, after up to 8192 rows have been collected; no file is ever changed. -/
theorem C78_group_none_partial (c : WriteCache ρ) (hg : c.group = none) (f : File ρ) :
    ∀ ops : List (Op ρ), (runOps ops (c, f)).1.2 = f ∧
      ((runOps ops (c, f)).2 = none ∨ (runOps ops (c, f)).2 = some .assertionError) ∧
      (runOps (ops ++ [.flush]) (c, f)).2 = some .assertionError := by
  intro ops
  have hflush : ∀ c : WriteCache ρ, c.group = none → c.flush f = ((c, f), some .assertionError) := by
    intro c hc
    unfold WriteCache.flush
    rw [hc]
    split <;> rfl
  induction ops generalizing c with
  | nil => simp [runOps, Op.run, hflush c hg]
  | cons o ops ih =>
    cases o with
    | flush => simp [runOps, Op.run, hflush c hg]
    | append x =>
      have happ : c.append f x = ((c, f), some .assertionError) ∨
          c.append f x = (({ c with cache := c.cache ++ [x] }, f), none) := by
        unfold WriteCache.append
        split
        · rw [hflush c hg]; exact Or.inl rfl
        · exact Or.inr rfl
      simp only [List.cons_append, runOps, Op.run]
      rcases happ with happ | happ
      · simp [happ]
      · rw [happ]
        exact ih _ hg

example : ∃ c : WriteCache Nat, WriteCache.new true none 1 false = .ok c ∧ c.group = none :=
  ⟨_, rfl, rfl⟩

end Verif.Cache
