import Verif.Viewer.SortProps
import Verif.Viewer.TitleProps
/-!
# Properties C137 and C161: exactly when they hold
-/

namespace Verif.Viewer

variable (env : Env)

/-- The text of a number says how many digits there are before the point. -/
theorem Decimal.length {a : Str} {p : ℚ} {n : Nat} (h : Decimal a p n) :
    (a.takeWhile (fun c => decide (c ≠ '.'))).length = n := by
  obtain ⟨i, f, hi, -, hl, -, ha⟩ := h
  have hd : ∀ c ∈ i, decide (c ≠ '.') = true := by
    intro c hc
    have := hi c hc
    rw [decide_eq_true_eq]
    rintro rfl
    revert this
    decide
  rcases ha with ⟨rfl, -⟩ | rfl
  · have := List.takeWhile_append_of_pos (l₂ := []) hd
    rw [List.append_nil, List.takeWhile_nil, List.append_nil] at this
    rw [this, hl]
  · rw [List.takeWhile_append_of_pos hd]
    simp [hl]

/-- The numbers of a list stand in the same order as texts. -/
def SameOrder (l : List Str) : Prop :=
  ∀ (a b : Str) (p q : ℚ) (m n : Nat), a ∈ l → b ∈ l → Decimal a p m → Decimal b q n → p < q → a < b

theorem increasing_iff {l : List Str} (h : l.Pairwise (fun a b => ¬ b < a)) : Increasing l ↔ SameOrder l := by
  constructor
  · intro hinc a b p q m n ha hb hp hq hpq
    by_contra hlt
    obtain ⟨j, hj⟩ := List.getElem?_of_mem ha
    obtain ⟨k, hk⟩ := List.getElem?_of_mem hb
    rcases Nat.lt_trichotomy j k with hjk | rfl | hjk
    · obtain ⟨hj1, hj2⟩ := List.getElem?_eq_some_iff.1 hj
      obtain ⟨hk1, hk2⟩ := List.getElem?_eq_some_iff.1 hk
      have := List.pairwise_iff_getElem.1 h j k hj1 hk1 hjk
      rw [hj2, hk2] at this
      have he : a = b := List.le_antisymm (List.not_lt.1 this) (List.not_lt.1 hlt)
      subst he
      have hmn : m = n := hp.length.symm.trans hq.length
      subst hmn
      exact hlt (hp.lt hq hpq)
    · have he : a = b := by
        rw [hj] at hk
        exact Option.some.inj hk
      subst he
      have hmn : m = n := hp.length.symm.trans hq.length
      subst hmn
      exact hlt (hp.lt hq hpq)
    · exact absurd (hinc k j b a q p n m hjk hk hj hq hp) (not_le.2 hpq)
  · intro hs j k a b p q m n hjk ha hb hp hq
    by_contra hlt
    obtain ⟨hj1, hj2⟩ := List.getElem?_eq_some_iff.1 ha
    obtain ⟨hk1, hk2⟩ := List.getElem?_eq_some_iff.1 hb
    have := List.pairwise_iff_getElem.1 h j k hj1 hk1 hjk
    rw [hj2, hk2] at this
    exact this (hs b a q p n m (List.mem_of_getElem? hb) (List.mem_of_getElem? ha) hq hp (not_le.1 hlt))

/-- C161, exactly.  In every state each of the three lists is in increasing order iff any two numbers of it are in the
same order as numbers and as texts. -/
theorem C161_exactly (files : List Str) (timers : List Nat) (fresh : Nat) (s : State)
    (h : Reachable env files timers fresh s) :
    (Increasing s.pressures ↔ SameOrder s.pressures) ∧ (Increasing s.temps ↔ SameOrder s.temps) ∧
      (Increasing s.iters ↔ SameOrder s.iters) := by
  obtain ⟨h1, h2, -, h4⟩ := C161_texts env files timers fresh s h
  exact ⟨increasing_iff h1, increasing_iff h2, increasing_iff h4⟩

/-- The temperatures 2.0 and 10.0 are not; such a state is reached. -/
example : (∃ s, Reachable threeFrames twoTemps [] 0 s) ∧ ¬ SameOrder ["10.0".toList, "2.0".toList] := by
  refine ⟨?_, ?_⟩
  · obtain ⟨s, h, -⟩ := C161_order_refuted
    exact ⟨s, h⟩
  · intro h
    have := h "2.0".toList "10.0".toList 2 10 1 2 (by decide) (by decide) decimal_two decimal_ten (by norm_num)
    revert this
    decide

/-- **C137, exactly.**  The title is the timestep of the frame that is plotted iff that frame is the one the viewer
holds, the one it tried to plot last. -/
theorem C137_exactly (files : List Str) (timers : List Nat) (fresh : Nat) (s : State)
    (h : Page env files timers fresh False s) :
    TitleOfPlot s ↔ ∃ f i k, s.shown = some ((f, i), k) ∧ s.frame = some (f, i) := by
  unfold TitleOfPlot
  rw [C137_held_partial env files timers fresh s h]

/-- A page where the second frame is held but not plotted, and one where the frame held is plotted. -/
example : (∃ s, Page secondFails twoFiles [] 0 False s ∧ ¬ TitleOfPlot s) ∧
    ∃ s, Page secondFails twoFiles [] 0 True s ∧ TitleOfPlot s := by
  constructor
  · obtain ⟨s, f, h, -, -, h2⟩ := C137_refuted.2.2
    exact ⟨s, h, h2⟩
  · obtain ⟨s, h, -⟩ := secondFails_create
    have h' := (C137_document _ _ _ _ _ h).2
    exact ⟨_, .start _ h', C137_quiet_partial _ _ _ _ _ (.start _ h')⟩

end Verif.Viewer
