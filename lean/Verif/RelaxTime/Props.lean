import Mathlib.Tactic.NormNum
import Verif.RelaxTime.Lemmas
/-!
# C47 – C51, C80: relaxation times from a series of values
-/

namespace Verif.RelaxTime

/-! ## C47 -/

/-- **C47**, partial: when the first value beyond the threshold is not the very first one, the result
is its time and the gap to the time before.  Missing: series that never cross, or cross at once
(`C47_never_refuted`). -/
theorem C47_threshold_partial {signals : Bool} {time : List ℝ} {value : List (Option ℝ)} {thr : ℝ}
    {decay : Bool} (hs : signals = true → none ∉ value) {i : ℕ}
    (h : FirstBeyond thr decay value (i + 1)) {t t' : ℝ} (ht : time[i + 1]? = some t)
    (ht' : time[i]? = some t') :
    thresholdRelaxation signals time value thr decay = .ok ⟨some t, some (t - t')⟩ := by
  rw [threshold_eq hs, argmax_first h]
  simp only
  rw [pyAt_nat ht, pyAt_pred ht']

/-- A decay that crosses in its third sample, after a NaN. -/
example : FirstBeyond (1 / 2) true [some 1, none, some (1 / 4), some 1] 2 := by
  refine ⟨⟨some (1 / 4), rfl, by simp [Beyond]; norm_num⟩, ?_⟩
  intro j hj v hv
  have : j = 0 ∨ j = 1 := by omega
  rcases this with rfl | rfl
  · obtain rfl := Option.some.inj hv
    simp [Beyond]; norm_num
  · obtain rfl := Option.some.inj hv
    simp [Beyond]

/-- What happens when the series crosses at once: the "gap to the previous time" is the gap to the
*last* time, negative for increasing times. -/
theorem C47_at_once {signals : Bool} {time : List ℝ} {value : List (Option ℝ)} {thr : ℝ}
    {decay : Bool} (hs : signals = true → none ∉ value) (h : FirstBeyond thr decay value 0)
    {t t' : ℝ} (ht : time[0]? = some t) (ht' : time.getLast? = some t') :
    thresholdRelaxation signals time value thr decay = .ok ⟨some t, some (t - t')⟩ := by
  rw [threshold_eq hs, argmax_first h]
  simp only
  rw [pyAt_nat ht, pyAt_last ht']

/-- What happens when the series never crosses: the same. -/
theorem C47_never {signals : Bool} {time : List ℝ} {value : List (Option ℝ)} {thr : ℝ}
    {decay : Bool} (hs : signals = true → none ∉ value) (hne : value ≠ [])
    (h : ∀ v ∈ value, ¬ Beyond thr decay v) {t t' : ℝ} (ht : time[0]? = some t)
    (ht' : time.getLast? = some t') :
    thresholdRelaxation signals time value thr decay = .ok ⟨some t, some (t - t')⟩ := by
  rw [threshold_eq hs, argmax_none hne h]
  simp only
  rw [pyAt_nat ht, pyAt_last ht']

/-- A series that stays above one half. -/
example : thresholdRelaxation false [0, 1, 5] [some 1, none, some (3 / 4)] (1 / 2) true = .ok ⟨some 0, some (0 - 5)⟩ :=
  C47_never (by simp) (by simp) (by
    intro v hv
    simp only [List.mem_cons, List.not_mem_nil, or_false] at hv
    rcases hv with rfl | rfl | rfl <;> norm_num [Beyond]) rfl rfl

/-- **C47**, second half, is false: for any times, threshold and direction there are two series of
values, one that never crosses and one that crosses at once, with the same result, which is not
NaN. -/
theorem C47_never_refuted (signals : Bool) (time : List ℝ) (hne : time ≠ []) (thr : ℝ)
    (decay : Bool) : ∃ never once : List (Option ℝ),
    never.length = time.length ∧ once.length = time.length ∧
      (∀ v ∈ never, ¬ Beyond thr decay v) ∧ FirstBeyond thr decay once 0 ∧
      (∃ t e : ℝ, thresholdRelaxation signals time never thr decay = .ok ⟨some t, some e⟩ ∧
        thresholdRelaxation signals time once thr decay = .ok ⟨some t, some e⟩) := by
  have hpos := List.length_pos_iff.2 hne
  let x : ℝ := if decay then thr - 1 else thr + 1
  obtain ⟨t, ht⟩ : ∃ t, time[0]? = some t := ⟨_, List.getElem?_eq_getElem hpos⟩
  obtain ⟨t', ht'⟩ : ∃ t, time.getLast? = some t := ⟨_, List.getLast?_eq_some_getLast hne⟩
  have h1 : ∀ v ∈ List.replicate time.length (some thr), ¬ Beyond thr decay v := by
    intro v hv
    rw [List.eq_of_mem_replicate hv]
    cases decay <;> simp [Beyond]
  have h2 : FirstBeyond thr decay (List.replicate time.length (some x)) 0 := by
    refine ⟨⟨some x, by simp [hpos], ?_⟩, by intro j hj; omega⟩
    cases decay <;> simp [Beyond, x]
  refine ⟨List.replicate time.length (some thr), List.replicate time.length (some x), by simp,
    by simp, h1, h2, t, t - t', ?_, ?_⟩
  · refine C47_never (fun _ => ?_) ?_ h1 ht ht'
    · intro h; have := List.eq_of_mem_replicate h; cases this
    · simpa using hne
  · exact C47_at_once (fun _ h => by have := List.eq_of_mem_replicate h; cases this) h2 ht ht'

/-! ## C48 -/

/-- **C48**, `max_time_relaxation`: the time of the first largest value, with an error that is not
negative for increasing times. -/
theorem C48_max_time {time : List ℝ} {value : List (Option ℝ)} (hl : time.length = value.length)
    {i : ℕ} {x : ℝ} (h : FirstMax value i x) :
    ∃ t err, maxTimeRelaxation time value = .ok ⟨some t, some err⟩ ∧ time[i]? = some t ∧
      (time.Pairwise (· < ·) → 0 ≤ err) := by
  have hi : i < value.length := (List.getElem?_eq_some_iff.1 h.1).1
  have hget : ∀ j (hj : j < time.length), time[j]? = some time[j] := fun j hj =>
    List.getElem?_eq_getElem hj
  unfold maxTimeRelaxation
  rw [if_neg (by simpa using hl), nanargmax_firstMax h]
  simp only
  by_cases hlast : (i : ℤ) = (value.length : ℤ) - 1
  · rw [if_pos hlast]
    cases i with
    | zero =>
      have hlen : time.length = 1 := by omega
      obtain ⟨a, rfl⟩ := List.length_eq_one_iff.1 hlen
      refine ⟨a, 0, ?_, rfl, fun _ => le_rfl⟩
      have e1 : pyAt [a] ((0 : ℕ) : ℤ) = .ok a := pyAt_nat rfl
      have e2 : pyAt [a] (((0 : ℕ) : ℤ) - 1) = .ok a := pyAt_last rfl
      simp only [e1, e2, bind, Except.bind, pure, Except.pure, sub_self]
    | succ i =>
      have e1 := pyAt_nat (hget (i + 1) (by omega))
      have e2 := pyAt_pred (hget i (by omega))
      refine ⟨_, time[i + 1] - time[i], ?_, hget (i + 1) (by omega), ?_⟩
      · simp only [e1, e2, bind, Except.bind, pure, Except.pure]
      · intro hinc
        have := List.pairwise_iff_getElem.1 hinc i (i + 1) (by omega) (by omega) (by omega)
        linarith
  · rw [if_neg hlast]
    have hlt : i + 1 < time.length := by omega
    cases i with
    | zero =>
      have e1 := pyAt_succ (hget (0 + 1) hlt)
      have e2 := pyAt_nat (hget 0 (by omega))
      refine ⟨_, time[0 + 1] - time[0], ?_, hget 0 (by omega), ?_⟩
      · simp only [e1, e2, bind, Except.bind, pure, Except.pure, if_true]
      · intro hinc
        have := List.pairwise_iff_getElem.1 hinc 0 (0 + 1) (by omega) (by omega) (by omega)
        linarith
    | succ i =>
      have e1 := pyAt_succ (hget (i + 1 + 1) hlt)
      have e2 := pyAt_pred (hget i (by omega))
      have e3 := pyAt_nat (hget (i + 1) (by omega))
      refine ⟨_, (time[i + 1 + 1] - time[i]) / 2, ?_, hget (i + 1) (by omega), ?_⟩
      · rw [if_neg (by omega)]
        simp only [e1, e2, e3, bind, Except.bind, pure, Except.pure]
      · intro hinc
        have := List.pairwise_iff_getElem.1 hinc i (i + 1 + 1) (by omega) (by omega) (by omega)
        linarith

/-- A maximum in the middle. -/
example : ∃ t err, maxTimeRelaxation [0, 1, 5] [some 2, some 7, some 1] = .ok ⟨some t, some err⟩ ∧ ([0, 1, 5] : List ℝ)[1]? = some t ∧
    (([0, 1, 5] : List ℝ).Pairwise (· < ·) → 0 ≤ err) :=
  C48_max_time (i := 1) (x := 7) rfl (by
    refine ⟨rfl, ?_, ?_⟩
    · intro y hy
      simp at hy
      rcases hy with rfl | rfl | rfl <;> norm_num
    · intro j hj y hy
      obtain rfl : j = 0 := by omega
      simp at hy
      rw [← hy]
      norm_num)

/-- **C48**, `max_value_relaxation`: the first largest value, with an error that is not negative, or
NaN. -/
theorem C48_max_value {time : List ℝ} {value : List (Option ℝ)} (hl : time.length = value.length)
    {i : ℕ} {x : ℝ} (h : FirstMax value i x) :
    ∃ err, maxValueRelaxation time value = .ok ⟨some x, err⟩ ∧ ∀ e, err = some e → 0 ≤ e := by
  have hi : i < value.length := (List.getElem?_eq_some_iff.1 h.1).1
  have hget : ∀ j (hj : j < value.length), value[j]? = some value[j] := fun j hj =>
    List.getElem?_eq_getElem hj
  have hsub : ∀ v ∈ value, ∀ e, nanSub (some x) v = some e → 0 ≤ e := by
    intro v hv e he
    cases v with
    | none => cases he
    | some y =>
      have := h.2.1 y hv
      simp only [nanSub, Option.some.injEq] at he
      linarith
  unfold maxValueRelaxation
  rw [if_neg (by simpa using hl), nanargmax_firstMax h]
  have e0 := pyAt_nat h.1
  simp only [e0, bind, Except.bind]
  by_cases hlast : (i : ℤ) = (value.length : ℤ) - 1
  · rw [if_pos hlast]
    cases i with
    | zero =>
      have hlen : value.length = 1 := by omega
      obtain ⟨a, ha⟩ := List.length_eq_one_iff.1 hlen
      have hax : a = some x := by
        have := h.1
        rw [ha] at this
        exact Option.some.inj this
      have e2 : pyAt value (((0 : ℕ) : ℤ) - 1) = .ok a := pyAt_last (by rw [ha]; rfl)
      refine ⟨nanSub (some x) (some x), ?_, ?_⟩
      · simp only [e2, hax, pure, Except.pure]
      · exact hsub _ (by rw [ha, hax]; simp)
    | succ i =>
      have e2 := pyAt_pred (hget i (by omega))
      refine ⟨nanSub (some x) value[i], ?_, hsub _ (List.getElem_mem _)⟩
      simp only [e2, pure, Except.pure]
  · rw [if_neg hlast]
    have hlt : i + 1 < value.length := by omega
    cases i with
    | zero =>
      have e1 := pyAt_succ (hget (0 + 1) hlt)
      refine ⟨nanSub (some x) value[0 + 1], ?_, hsub _ (List.getElem_mem _)⟩
      simp only [e1, pure, Except.pure, if_true]
    | succ i =>
      have e1 := pyAt_succ (hget (i + 1 + 1) hlt)
      have e2 := pyAt_pred (hget i (by omega))
      refine ⟨nanMid (nanSub (some x) value[i]) (nanSub (some x) value[i + 1 + 1]), ?_, ?_⟩
      · rw [if_neg (by omega)]
        simp only [e1, e2, pure, Except.pure]
      · intro e he
        have ha := hsub value[i] (List.getElem_mem _)
        have hb := hsub value[i + 1 + 1] (List.getElem_mem _)
        revert he ha hb
        generalize nanSub (some x) value[i] = a
        generalize nanSub (some x) value[i + 1 + 1] = b
        intro he ha hb
        cases a with
        | none => cases he
        | some a =>
          cases b with
          | none => cases he
          | some b =>
            have := ha a rfl
            have := hb b rfl
            simp only [nanMid, Option.some.injEq] at he
            linarith

/-- A maximum in the middle. -/
example : ∃ err, maxValueRelaxation [0, 1, 5] [some 2, some 7, some 1] = .ok ⟨some 7, err⟩ ∧
    ∀ e, err = some e → 0 ≤ e :=
  C48_max_value (i := 1) (x := 7) rfl (by
    refine ⟨rfl, ?_, ?_⟩
    · intro y hy
      simp at hy
      rcases hy with rfl | rfl | rfl <;> norm_num
    · intro j hj y hy
      obtain rfl : j = 0 := by omega
      simp at hy
      rw [← hy]
      norm_num)

/-- **C48**, there is such a position exactly when not everything is NaN; otherwise, and for an empty
array, both results are (NaN, NaN). -/
theorem C48_defined (time : List ℝ) (value : List (Option ℝ)) (hl : time.length = value.length) :
    ((∃ y, some y ∈ value) → ∃ i x, FirstMax value i x) ∧
    ((∀ v ∈ value, v = none) → maxTimeRelaxation time value = .ok ⟨none, none⟩ ∧
      maxValueRelaxation time value = .ok ⟨none, none⟩) := by
  refine ⟨exists_firstMax, fun h => ?_⟩
  have h' : ∀ y, some y ∉ value := fun y hy => by cases h _ hy
  unfold maxTimeRelaxation maxValueRelaxation
  rw [if_neg (by simpa using hl), if_neg (by simpa using hl), nanargmax_none h']
  exact ⟨rfl, rfl⟩

/-- Two values that are both NaN. -/
example : maxTimeRelaxation [0, 1] [none, none] = .ok ⟨none, none⟩ :=
  ((C48_defined [0, 1] [none, none] rfl).2 (by simp)).1

/-- **C48**, unequal lengths raise RuntimeError. -/
theorem C48_lengths (time : List ℝ) (value : List (Option ℝ)) (hl : time.length ≠ value.length) :
    maxTimeRelaxation time value = .error .runtimeError ∧
      maxValueRelaxation time value = .error .runtimeError := by
  unfold maxTimeRelaxation maxValueRelaxation
  rw [if_pos hl, if_pos hl]
  exact ⟨rfl, rfl⟩

example : maxTimeRelaxation [0, 1] [some 1] = .error .runtimeError := (C48_lengths _ _ (by simp)).1

/-- **C48**, the errors inside the array: the mean of the distances to the times before and after, and the mean of the
differences to the values before and after. -/
theorem C48_errors {time : List ℝ} {value : List (Option ℝ)} (hl : time.length = value.length) {i : ℕ} {x : ℝ}
    (h : FirstMax value (i + 1) x) {a b c : ℝ} (ha : time[i]? = some a) (hb : time[i + 1]? = some b)
    (hc : time[i + 2]? = some c) {u w : ℝ} (hu : value[i]? = some (some u)) (hw : value[i + 2]? = some (some w)) :
    maxTimeRelaxation time value = .ok ⟨some b, some (((b - a) + (c - b)) / 2)⟩ ∧
    maxValueRelaxation time value = .ok ⟨some x, some (((x - u) + (x - w)) / 2)⟩ := by
  have hi : i + 2 < value.length := (List.getElem?_eq_some_iff.1 hw).1
  unfold maxTimeRelaxation maxValueRelaxation
  rw [if_neg (by simpa using hl), if_neg (by simpa using hl), nanargmax_firstMax h]
  have hne : ¬ (((i + 1 : ℕ) : ℤ) = (value.length : ℤ) - 1) := by omega
  have h0 : ¬ (i + 1 = 0) := by omega
  constructor
  · simp only [hne, h0, if_false, pyAt_succ hc, pyAt_pred ha, pyAt_nat hb, bind, Except.bind, pure, Except.pure]
    rw [show c - a = (b - a) + (c - b) by ring]
  · simp only [hne, h0, if_false, pyAt_succ hw, pyAt_pred hu, pyAt_nat h.1, bind, Except.bind, pure, Except.pure,
      nanSub, nanMid]

/-- Gaps of 1 and 4 between the times, of 5 and 6 between the values. -/
example : maxTimeRelaxation [0, 1, 5] [some 2, some 7, some 1] = .ok ⟨some 1, some (((1 - 0) + (5 - 1)) / 2)⟩ ∧
    maxValueRelaxation [0, 1, 5] [some 2, some 7, some 1] = .ok ⟨some 7, some (((7 - 2) + (7 - 1)) / 2)⟩ :=
  C48_errors (i := 0) (x := 7) rfl (by
    refine ⟨rfl, ?_, ?_⟩
    · intro y hy
      simp at hy
      rcases hy with rfl | rfl | rfl <;> norm_num
    · intro j hj y hy
      obtain rfl : j = 0 := by omega
      simp at hy
      rw [← hy]
      norm_num) rfl rfl rfl rfl rfl

/-- **C48**, the errors at the ends of the array: the distance and the difference to the only neighbour. -/
theorem C48_errors_ends {time : List ℝ} {value : List (Option ℝ)} (hl : time.length = value.length) {x : ℝ} :
    (∀ a b u, FirstMax value 0 x → time[0]? = some a → time[1]? = some b → value[1]? = some (some u) →
      maxTimeRelaxation time value = .ok ⟨some a, some (b - a)⟩ ∧
      maxValueRelaxation time value = .ok ⟨some x, some (x - u)⟩) ∧
    (∀ i a b u, FirstMax value (i + 1) x → time.length = i + 2 → time[i]? = some a → time[i + 1]? = some b →
      value[i]? = some (some u) →
      maxTimeRelaxation time value = .ok ⟨some b, some (b - a)⟩ ∧
      maxValueRelaxation time value = .ok ⟨some x, some (x - u)⟩) := by
  constructor
  · intro a b u h ha hb hu
    have hi : 1 < value.length := (List.getElem?_eq_some_iff.1 hu).1
    have hne : ¬ (((0 : ℕ) : ℤ) = (value.length : ℤ) - 1) := by omega
    unfold maxTimeRelaxation maxValueRelaxation
    rw [if_neg (by simpa using hl), if_neg (by simpa using hl), nanargmax_firstMax h]
    constructor
    · simp only [hne, if_true, if_false, pyAt_succ (i := 0) hb, pyAt_nat ha, bind, Except.bind, pure, Except.pure]
    · simp only [hne, if_true, if_false, pyAt_succ (i := 0) hu, pyAt_nat h.1, bind, Except.bind, pure, Except.pure,
        nanSub]
  · intro i a b u h hn ha hb hu
    have he : ((i + 1 : ℕ) : ℤ) = (value.length : ℤ) - 1 := by omega
    unfold maxTimeRelaxation maxValueRelaxation
    rw [if_neg (by simpa using hl), if_neg (by simpa using hl), nanargmax_firstMax h]
    constructor
    · simp only [he, if_true]
      rw [← he]
      simp only [pyAt_pred ha, pyAt_nat hb, bind, Except.bind, pure, Except.pure]
    · simp only [he, if_true]
      rw [← he]
      simp only [pyAt_pred hu, pyAt_nat h.1, bind, Except.bind, pure, Except.pure, nanSub]

/-- A maximum that occurs twice, with NaN around. -/
example : FirstMax [none, some 2, some 7, none, some 7, some 1] 2 7 := by
  refine ⟨rfl, ?_, ?_⟩
  · intro y hy
    simp at hy
    rcases hy with rfl | rfl | rfl <;> norm_num
  · intro j hj y hy
    have : j = 0 ∨ j = 1 := by omega
    rcases this with rfl | rfl
    · simp at hy
    · simp at hy; rw [← hy]; norm_num

/-! ## C49 -/

theorem sse_nonneg (points : List (ℝ × ℝ)) (m b : ℝ) : 0 ≤ sse points m b := by
  unfold sse
  apply List.sum_nonneg
  intro x hx
  obtain ⟨p, -, rfl⟩ := List.mem_map.1 hx
  positivity

theorem sse_zero {points : List (ℝ × ℝ)} {m b : ℝ} (h : sse points m b = 0) :
    ∀ p ∈ points, m * p.1 + b = p.2 := by
  induction points with
  | nil => intro p hp; cases hp
  | cons q l ih =>
    have hq : sse (q :: l) m b = (m * q.1 + b - q.2) ^ 2 + sse l m b := by simp [sse]
    have h1 := sse_nonneg l m b
    have h2 := sq_nonneg (m * q.1 + b - q.2)
    intro p hp
    rcases List.mem_cons.1 hp with rfl | hp
    · have : (m * p.1 + b - p.2) ^ 2 = 0 := by linarith
      have := (pow_eq_zero_iff two_ne_zero).1 this
      linarith
    · exact ih (by linarith) p hp

theorem mem_region {lo hi : ℝ} {time : List ℝ} {value : List (Option ℝ)} {t x : ℝ} :
    (t, x) ∈ region lo hi time value ↔ (t, some x) ∈ time.zip value ∧ lo < x ∧ x < hi := by
  unfold region
  rw [List.mem_filterMap]
  constructor
  · rintro ⟨⟨s, v⟩, hp, h⟩
    cases v with
    | none => cases h
    | some y =>
      simp only at h
      split at h
      · rename_i hb
        simp only [Option.some.injEq, Prod.mk.injEq] at h
        obtain ⟨rfl, rfl⟩ := h
        simp only [between, Bool.and_eq_true, decide_eq_true_eq] at hb
        exact ⟨hp, hb⟩
      · cases h
  · rintro ⟨hp, hlo, hhi⟩
    refine ⟨(t, some x), hp, ?_⟩
    have : between lo hi (some x) = true := by simp [between, hlo, hhi]
    simp [this]

/-- **C49**.  If the msd is `2 d D t + b` at the samples in the region 2 < msd < 50, of which there
are at least three and two at different times, then whatever the least squares solver is, the result
is `D`. -/
theorem C49_diffusion {signals : Bool} {fit : List (ℝ × ℝ) → Except PyErr Fit}
    (hfit : LeastSquares fit) {time : List ℝ} {msd : List (Option ℝ)}
    (hl : time.length = msd.length) (hs : signals = true → none ∉ msd) {d : ℕ} (hd : 0 < d)
    {D b : ℝ}
    (hline : ∀ t x, (t, some x) ∈ time.zip msd → 2 < x → x < 50 → x = 2 * d * D * t + b)
    (hthree : 3 ≤ (msd.filter (between 2 50)).length)
    (htwo : ∃ t₁ x₁ t₂ x₂, (t₁, some x₁) ∈ time.zip msd ∧ (t₂, some x₂) ∈ time.zip msd ∧
      2 < x₁ ∧ x₁ < 50 ∧ 2 < x₂ ∧ x₂ < 50 ∧ t₁ ≠ t₂)
    {r : Result} {f : Fit} (hf : fit (region 2 50 time msd) = .ok f)
    (h : diffusionConstant signals fit time msd d = .ok r) : r.mean = some D := by
  have hopt := hfit _ f hf (2 * d * D) b
  have hzero : sse (region 2 50 time msd) (2 * d * D) b = 0 := by
    unfold sse
    have : (region 2 50 time msd).map (fun p => (2 * ↑d * D * p.1 + b - p.2) ^ 2) =
        (region 2 50 time msd).map (fun _ => 0) := by
      apply List.map_congr_left
      rintro ⟨t, x⟩ hp
      obtain ⟨hm, h1, h2⟩ := mem_region.1 hp
      simp only
      rw [hline t x hm h1 h2]
      ring
    rw [this]
    simp
  have hf0 := sse_zero (le_antisymm (hopt.trans hzero.le) (sse_nonneg _ _ _))
  obtain ⟨t₁, x₁, t₂, x₂, hm1, hm2, a1, a2, b1, b2, hne⟩ := htwo
  have e1 := hf0 _ (mem_region.2 ⟨hm1, a1, a2⟩)
  have e2 := hf0 _ (mem_region.2 ⟨hm2, b1, b2⟩)
  have g1 := hline _ _ hm1 a1 a2
  have g2 := hline _ _ hm2 b1 b2
  simp only at e1 e2
  have hslope : f.p0 = 2 * d * D := by
    have : (f.p0 - 2 * d * D) * (t₁ - t₂) = 0 := by linear_combination e1 - e2 + g1 - g2
    rcases mul_eq_zero.1 this with h | h
    · linarith
    · exact absurd (sub_eq_zero.1 h) hne
  unfold diffusionConstant at h
  have hs' : (signals && msd.any Option.isNone) = false := by
    cases signals with
    | false => rfl
    | true =>
      simp only [Bool.true_and, List.any_eq_false]
      intro v hv
      cases v with
      | none => exact absurd hv (hs rfl)
      | some x => simp
  rw [hs'] at h
  simp only [Bool.false_eq_true, if_false] at h
  rw [if_neg (by omega), if_neg (by simpa using hl), hf] at h
  simp only at h
  split at h
  · obtain rfl := (Except.ok.inj h).symm
    simp only
    rw [hslope]
    have : (d : ℝ) ≠ 0 := by exact_mod_cast hd.ne'
    congr 1
    field_simp
  · cases h

/-- **C49**, two or fewer samples in the region give (NaN, NaN), without calling the solver. -/
theorem C49_too_few (signals : Bool) (fit : List (ℝ × ℝ) → Except PyErr Fit) (time : List ℝ)
    (msd : List (Option ℝ)) (d : ℕ) (h : (msd.filter (between 2 50)).length ≤ 2) :
    diffusionConstant signals fit time msd d = .ok ⟨none, none⟩ := by
  unfold diffusionConstant
  split
  · rfl
  · first | rfl | (rw [if_pos h]; rfl)

/-- One of the values is between 2 and 50. -/
example (fit : List (ℝ × ℝ) → Except PyErr Fit) :
    diffusionConstant true fit [0, 1, 2] [some 1, some 4, none] 2 = .ok ⟨none, none⟩ := by
  apply C49_too_few
  have h1 : between 2 50 (some 1) = false := by simp [between]
  have hn : between 2 50 none = false := rfl
  rw [List.filter_cons_of_neg (by simp [h1])]
  exact (List.length_filter_le _ _).trans (by simp)

/-- There are least squares solvers: one for points that lie on a line, an exception otherwise. -/
theorem exists_leastSquares : ∃ fit, LeastSquares fit ∧
    ∀ points m b, (∀ p ∈ points, m * p.1 + b = p.2) → ∃ f, fit points = .ok f ∧ f.var0 = 0 ∧
      f.var1 = 0 := by
  classical
  refine ⟨fun points => if h : ∃ mb : ℝ × ℝ, ∀ p ∈ points, mb.1 * p.1 + mb.2 = p.2 then
    .ok ⟨h.choose.1, h.choose.2, 0, 0⟩ else .error .runtimeError, ?_, ?_⟩
  · intro points f hf m b
    simp only at hf
    split at hf
    · rename_i h
      obtain rfl := (Except.ok.inj hf).symm
      have : sse points h.choose.1 h.choose.2 = 0 := by
        unfold sse
        have : points.map (fun p => (h.choose.1 * p.1 + h.choose.2 - p.2) ^ 2) =
            points.map (fun _ => 0) := by
          apply List.map_congr_left
          intro p hp
          rw [h.choose_spec p hp]
          ring
        rw [this]
        simp
      simp only
      rw [this]
      exact sse_nonneg _ _ _
    · cases hf
  · intro points m b h
    have h' : ∃ mb : ℝ × ℝ, ∀ p ∈ points, mb.1 * p.1 + mb.2 = p.2 := ⟨(m, b), h⟩
    simp only
    rw [dif_pos h']
    exact ⟨_, rfl, rfl, rfl⟩

/-- The hypotheses of `C49_diffusion`: five samples, of which three are in the region, with a NaN. -/
example : ∃ (time : List ℝ) (msd : List (Option ℝ)), time.length = msd.length ∧
    (∀ t x, (t, some x) ∈ time.zip msd → 2 < x → x < 50 → x = 2 * (2 : ℕ) * 1 * t + 0) ∧
    3 ≤ (msd.filter (between 2 50)).length := by
  refine ⟨[0, 1, 2, 3, 4], [some 1, some 4, some 8, some 12, none], rfl, ?_, ?_⟩
  · intro t x h h1 h2
    simp at h
    rcases h with ⟨rfl, rfl⟩ | ⟨rfl, rfl⟩ | ⟨rfl, rfl⟩ | ⟨rfl, rfl⟩ <;> norm_num at *
  · have h1 : between 2 50 (some 1) = false := by simp [between]
    have h4 : between 2 50 (some 4) = true := by simp [between]; norm_num
    have h8 : between 2 50 (some 8) = true := by simp [between]; norm_num
    have h12 : between 2 50 (some 12) = true := by simp [between]; norm_num
    have hn : between 2 50 none = false := rfl
    simp [h1, h4, h8, h12, hn]

/-! ## C50 -/

/-- **C50**, which computation belongs to which name. -/
theorem C50_dispatch (signals : Bool) (fit : List (ℝ × ℝ) → Except PyErr Fit) (t : List ℝ)
    (v : List (Option ℝ)) (hl : t.length = v.length) :
    computeRelaxationValue signals fit t v "msd" = diffusionConstant signals fit t v 2 ∧
    computeRelaxationValue signals fit t v "msr" = diffusionConstant signals fit t v 1 ∧
    computeRelaxationValue signals fit t v "struct_msd" =
      thresholdRelaxation signals t v (16 / 100) false ∧
    computeRelaxationValue signals fit t v "alpha" = maxTimeRelaxation t v ∧
    computeRelaxationValue signals fit t v "gamma" = maxTimeRelaxation t v ∧
    ∀ name, name ∉ ["msd", "msr", "struct_msd", "alpha", "gamma"] →
      computeRelaxationValue signals fit t v name =
        thresholdRelaxation signals t v (1 / Real.exp 1) true := by
  have hl' : ¬ t.length ≠ v.length := by simpa using hl
  refine ⟨?_, ?_, ?_, ?_, ?_, ?_⟩
  · unfold computeRelaxationValue
    rw [if_neg hl', if_pos rfl]
  · unfold computeRelaxationValue
    rw [if_neg hl', if_neg (by decide), if_pos rfl]
  · unfold computeRelaxationValue
    rw [if_neg hl', if_neg (by decide), if_neg (by decide), if_pos rfl]
  · unfold computeRelaxationValue
    rw [if_neg hl', if_neg (by decide), if_neg (by decide), if_neg (by decide), if_pos (by decide)]
  · unfold computeRelaxationValue
    rw [if_neg hl', if_neg (by decide), if_neg (by decide), if_neg (by decide), if_pos (by decide)]
  · intro name h
    simp only [List.mem_cons, List.not_mem_nil, or_false, not_or] at h
    unfold computeRelaxationValue
    rw [if_neg hl', if_neg h.1, if_neg h.2.1, if_neg h.2.2.1, if_neg (by tauto)]

/-- **C50**, unequal lengths. -/
theorem C50_lengths (signals : Bool) (fit : List (ℝ × ℝ) → Except PyErr Fit) (t : List ℝ)
    (v : List (Option ℝ)) (hl : t.length ≠ v.length) (name : String) :
    computeRelaxationValue signals fit t v name = .error .runtimeError := by
  unfold computeRelaxationValue
  rw [if_pos hl]

example (fit : List (ℝ × ℝ) → Except PyErr Fit) :
    computeRelaxationValue true fit [0, 1, 2] [some 1] "msd" = .error .runtimeError :=
  C50_lengths _ _ _ _ (by simp) _

/-! ## C51 -/

/-- **C51**.  Whatever the optimiser and the root finder do, a result is a positive time or NaN. -/
theorem C51_positive {fit : ℝ × ℝ → List (ℝ × ℝ) → Option (List ℝ) → Except PyErr Fit}
    {root : ℝ → ℝ → ℝ → Except PyErr (Option ℝ)} {time : List ℝ} {value : List (Option ℝ)}
    {sigma : Option (List ℝ)} {w : ℝ} {r : Result}
    (h : exponentialRelaxation fit root time value sigma w = .ok r) :
    r = ⟨none, none⟩ ∨ ∃ t, r.mean = some t ∧ 0 < t := by
  have hfin : ∀ (val err : Option ℝ), (match val with
      | some v => if v > 0 then (.ok ⟨some v, err⟩ : Except PyErr Result) else .ok nanResult
      | none => .ok nanResult) = .ok r → r = ⟨none, none⟩ ∨ ∃ t, r.mean = some t ∧ 0 < t := by
    intro val err h
    cases val with
    | none => left; exact (Except.ok.inj h).symm
    | some v =>
      simp only at h
      split at h
      · rename_i hv
        right
        obtain rfl := (Except.ok.inj h).symm
        exact ⟨v, rfl, hv⟩
      · left; exact (Except.ok.inj h).symm
  unfold exponentialRelaxation at h
  simp only at h
  split at h
  · cases h
  split at h
  · left; exact (Except.ok.inj h).symm
  split at h
  · cases h
  split at h
  · left; exact (Except.ok.inj h).symm
  · left; exact (Except.ok.inj h).symm
  · cases h
  split at h
  · split at h
    · left; exact (Except.ok.inj h).symm
    · cases h
    split at h
    · exact hfin _ _ h
    · left; exact (Except.ok.inj h).symm
    · cases h
    split at h
    · exact hfin _ _ h
    · left; exact (Except.ok.inj h).symm
    · cases h
    · exact hfin _ _ h
  · left; exact (Except.ok.inj h).symm

/-- **C51**, three or fewer samples near 1/e give (NaN, NaN). -/
theorem C51_too_few (fit : ℝ × ℝ → List (ℝ × ℝ) → Option (List ℝ) → Except PyErr Fit)
    (root : ℝ → ℝ → ℝ → Except PyErr (Option ℝ)) (time : List ℝ) (value : List (Option ℝ))
    (hl : time.length = value.length) (sigma : Option (List ℝ)) (w : ℝ)
    (h : (value.filter (between (1 / Real.exp 1 - w / 2) (1 / Real.exp 1 + w / 2))).length ≤ 3) :
    exponentialRelaxation fit root time value sigma w = .ok ⟨none, none⟩ := by
  unfold exponentialRelaxation
  rw [if_neg (by simpa using hl)]
  simp only
  rw [if_pos]
  · rfl
  · refine le_trans (le_of_eq ?_) h
    clear h
    induction time generalizing value with
    | nil =>
      have : value = [] := List.length_eq_zero_iff.1 hl.symm
      simp [this]
    | cons t ts ih =>
      cases value with
      | nil => simp at hl
      | cons v vs =>
        have := ih vs (by simpa using hl)
        cases v with
        | none =>
          simp only [List.zip_cons_cons, List.filterMap_cons, Option.map_none, List.filter_cons,
            between, Bool.false_eq_true, if_false]
          exact this
        | some x =>
          simp only [List.zip_cons_cons, List.filterMap_cons, Option.map_some, List.filter_cons]
          split
          · simp only [List.length_cons, this]
          · exact this

/-- Three values. -/
example (fit : ℝ × ℝ → List (ℝ × ℝ) → Option (List ℝ) → Except PyErr Fit)
    (root : ℝ → ℝ → ℝ → Except PyErr (Option ℝ)) :
    exponentialRelaxation fit root [0, 1, 2] [some 1, some (1 / 3), none] none = .ok ⟨none, none⟩ :=
  C51_too_few _ _ _ _ rfl _ _ ((List.length_filter_le _ _).trans (by simp))

/-- **C51**, which exceptions are turned into NaN: the RuntimeError and FloatingPointError of the
optimiser, and the RuntimeError of the root finder.  So a RuntimeError escapes only for unequal
lengths. -/
theorem C51_handled (fit : ℝ × ℝ → List (ℝ × ℝ) → Option (List ℝ) → Except PyErr Fit)
    (root : ℝ → ℝ → ℝ → Except PyErr (Option ℝ)) (time : List ℝ) (value : List (Option ℝ))
    (sigma : Option (List ℝ)) (w : ℝ) :
    (exponentialRelaxation fit root time value sigma w = .error .runtimeError ↔
      time.length ≠ value.length) ∧
    ((∀ a b c, root a b c ≠ .error .floatingPointError) →
      exponentialRelaxation fit root time value sigma w ≠ .error .floatingPointError) := by
  constructor
  · constructor
    · intro h
      unfold exponentialRelaxation at h
      simp only at h
      split at h
      · assumption
      exfalso
      split at h
      · cases h
      split at h
      · rename_i hs
        split at hs
        · cases hs
        · split at hs
          · cases hs; cases h
          · cases hs
      split at h
      · cases h
      · cases h
      · rename_i h1 h2 h3; cases h; exact h1 rfl
      split at h
      · split at h
        · cases h
        · rename_i h1 h2; cases h; exact h1 rfl
        split at h
        · split at h
          · split at h <;> cases h
          · cases h
        · cases h
        · rename_i h1 h2; cases h; exact h1 rfl
        split at h
        · split at h
          · split at h <;> cases h
          · cases h
        · cases h
        · rename_i h1 h2; cases h; exact h1 rfl
        · split at h
          · split at h <;> cases h
          · cases h
      · cases h
    · intro hl
      unfold exponentialRelaxation
      rw [if_pos hl]
  · intro hroot h
    unfold exponentialRelaxation at h
    simp only at h
    split at h
    · cases h
    split at h
    · cases h
    split at h
    · rename_i hs
      split at hs
      · cases hs
      · split at hs
        · cases hs; cases h
        · cases hs
    split at h
    · cases h
    · cases h
    · rename_i h1 h2 h3; cases h; exact h2 rfl
    split at h
    · split at h
      · cases h
      · rename_i h2; cases h; exact hroot _ _ _ h2
      split at h
      · rename_i h2; exact hroot _ _ _ h2
      · cases h
      · rename_i h2; cases h; exact hroot _ _ _ h2
      split at h
      · rename_i h2; exact hroot _ _ _ h2
      · cases h
      · rename_i h2; cases h; exact hroot _ _ _ h2
      · split at h
        · split at h <;> cases h
        · cases h
    · cases h

example (fit : ℝ × ℝ → List (ℝ × ℝ) → Option (List ℝ) → Except PyErr Fit)
    (root : ℝ → ℝ → ℝ → Except PyErr (Option ℝ)) :
    exponentialRelaxation fit root [0, 1, 2] [some 1] none = .error .runtimeError :=
  (C51_handled _ _ _ _ _ _).1.2 (by simp)

/-- More than three samples near 1/e. -/
def EnoughSamples (time : List ℝ) (value : List (Option ℝ)) (w : ℝ) : Prop :=
  3 < (((time.zip value).filterMap (fun p => p.2.map (fun x => (p.1, x)))).filter (fun p =>
    between (1 / Real.exp 1 - w / 2) (1 / Real.exp 1 + w / 2) (some p.2))).length

/-- **C51**, what is reported when optimiser and root finder succeed: the root of the fitted decay,
with the difference of the roots two standard deviations above and below as error. -/
theorem C51_value {fit : ℝ × ℝ → List (ℝ × ℝ) → Option (List ℝ) → Except PyErr Fit}
    {root : ℝ → ℝ → ℝ → Except PyErr (Option ℝ)} {time : List ℝ} {value : List (Option ℝ)}
    (hl : time.length = value.length) {w : ℝ} (hn : EnoughSamples time value w) {f : Fit}
    (hfit : ∀ p pts, fit p pts none = .ok f) (h0 : 0 ≤ f.var0) (h1 : 0 ≤ f.var1)
    {t lo hi : ℝ} (ht : 0 < t) (hr : ∀ x, root f.p0 f.p1 x = .ok (some t))
    (hlo : ∀ x, root (f.p0 - 2 * Real.sqrt f.var0) (f.p1 - 2 * Real.sqrt f.var1) x =
      .ok (some lo))
    (hhi : ∀ x, root (f.p0 + 2 * Real.sqrt f.var0) (f.p1 + 2 * Real.sqrt f.var1) x =
      .ok (some hi)) :
    exponentialRelaxation fit root time value none w = .ok ⟨some t, some (hi - lo)⟩ := by
  have e0 : npSqrt f.var0 = .ok (Real.sqrt f.var0) := by
    unfold npSqrt; rw [if_neg (not_lt.2 h0)]
  have e1 : npSqrt f.var1 = .ok (Real.sqrt f.var1) := by
    unfold npSqrt; rw [if_neg (not_lt.2 h1)]
  unfold EnoughSamples at hn
  unfold exponentialRelaxation
  rw [if_neg (by simpa using hl)]
  simp only
  rw [if_neg (by omega)]
  simp only [hfit, e0, e1, hr, hlo, hhi, nanSub, gt_iff_lt, ht, if_true]

/-- Four samples at 1/e. -/
theorem four_samples : EnoughSamples [1, 2, 3, 4]
    (List.replicate 4 (some (1 / Real.exp 1))) (3 / 10) := by
  have h : between (1 / Real.exp 1 - 3 / 10 / 2) (1 / Real.exp 1 + 3 / 10 / 2)
      (some (1 / Real.exp 1)) = true := by
    simp [between]
  unfold EnoughSamples
  simp only [List.replicate, List.zip_cons_cons, List.zip_nil_right, List.filterMap_cons,
    Option.map_some, List.filterMap_nil, List.filter_cons, h, if_true, List.filter_nil,
    List.length_cons, List.length_nil]
  norm_num

/-- The hypotheses of `C51_value` can be met. -/
example : ∃ r, exponentialRelaxation (fun _ _ _ => .ok ⟨1, 1, 0, 0⟩) (fun _ _ _ => .ok (some 3))
    [1, 2, 3, 4] (List.replicate 4 (some (1 / Real.exp 1))) = .ok r ∧ r.mean = some 3 :=
  ⟨_, C51_value rfl four_samples (fun _ _ => rfl) le_rfl le_rfl (by norm_num) (fun _ => rfl)
    (fun _ => rfl) (fun _ => rfl), rfl⟩

/-! ## C80 -/

/-- **C80** is false: a FloatingPointError of the root finder for the mean escapes, although the
same error in the error bars is handled. -/
theorem C80_refuted : ∃ (time : List ℝ) (value : List (Option ℝ))
    (fit : ℝ × ℝ → List (ℝ × ℝ) → Option (List ℝ) → Except PyErr Fit)
    (root : ℝ → ℝ → ℝ → Except PyErr (Option ℝ)), time.length = value.length ∧
      (∀ a b x e, root a b x = .error e → e = .floatingPointError) ∧
      exponentialRelaxation fit root time value none = .error .floatingPointError := by
  refine ⟨[1, 2, 3, 4], List.replicate 4 (some (1 / Real.exp 1)), fun _ _ _ => .ok ⟨1, 1, 0, 0⟩,
    fun _ _ _ => .error .floatingPointError, rfl, ?_, ?_⟩
  · intro a b x e h
    cases h; rfl
  · have h := four_samples
    have e0 : npSqrt 0 = .ok (Real.sqrt 0) := by unfold npSqrt; rw [if_neg (lt_irrefl _)]
    unfold EnoughSamples at h
    unfold exponentialRelaxation
    rw [if_neg (by simp)]
    simp only
    rw [if_neg (by omega)]
    simp only [e0]

/-- **C80**, partial: with a root finder that raises no FloatingPointError at the fitted parameters,
nothing but the errors of other kinds escapes: neither RuntimeError nor FloatingPointError, whatever
it does two standard deviations away.  Missing: `C80_refuted`. -/
theorem C80_numerical_partial
    (fit : ℝ × ℝ → List (ℝ × ℝ) → Option (List ℝ) → Except PyErr Fit)
    (root : ℝ → ℝ → ℝ → Except PyErr (Option ℝ)) (time : List ℝ) (value : List (Option ℝ))
    (hl : time.length = value.length) (sigma : Option (List ℝ)) (w : ℝ)
    (hroot : ∀ p pts s f, fit p pts s = .ok f → ∀ x, root f.p0 f.p1 x ≠ .error .floatingPointError) :
    exponentialRelaxation fit root time value sigma w ≠ .error .runtimeError ∧
      exponentialRelaxation fit root time value sigma w ≠ .error .floatingPointError := by
  refine ⟨fun h => (C51_handled fit root time value sigma w).1.1 h hl, ?_⟩
  intro h
  unfold exponentialRelaxation at h
  simp only at h
  split at h
  · cases h
  split at h
  · cases h
  split at h
  · rename_i hs
    split at hs
    · cases hs
    · split at hs
      · cases hs; cases h
      · cases hs
  split at h
  · cases h
  · cases h
  · rename_i h1 h2 h3; cases h; exact h2 rfl
  rename_i hf
  split at h
  · split at h
    · cases h
    · rename_i h2; cases h; exact hroot _ _ _ _ hf _ h2
    split at h
    · split at h
      · split at h <;> cases h
      · cases h
    · cases h
    · rename_i h2 _ _; cases h; exact h2 rfl
    split at h
    · split at h
      · split at h <;> cases h
      · cases h
    · cases h
    · rename_i h2 _ _; cases h; exact h2 rfl
    · split at h
      · split at h <;> cases h
      · cases h
  · cases h

/-- A root search that finds nothing. -/
example (fit : ℝ × ℝ → List (ℝ × ℝ) → Option (List ℝ) → Except PyErr Fit) :
    exponentialRelaxation fit (fun _ _ _ => .ok none) [1, 2, 3, 4] (List.replicate 4 (some (1 / Real.exp 1))) none ≠
      .error .runtimeError :=
  (C80_numerical_partial fit _ _ _ rfl none _ (by simp)).1

/-! ### C86: names of relaxations -/

/-- The names of the relaxation times, as they are published. -/
def published : List (String × String) :=
  [("alpha", "max_alpha_time"), ("gamma", "max_gamma_time"), ("com_struct", "tau_F"),
   ("msd", "diffusion_constant"), ("rot1", "tau_R1"), ("rot2", "tau_R2"), ("struct", "tau_S")]

theorem translate_eq (q : String) :
    translateRelaxation q = (if q = "alpha" then "max_alpha_time" else
      if q = "gamma" then "max_gamma_time" else if q = "com_struct" then "tau_F" else
      if q = "msd" then "diffusion_constant" else if q = "rot1" then "tau_R1" else
      if q = "rot2" then "tau_R2" else if q = "struct" then "tau_S" else q) := by
  simp only [translateRelaxation, Dict.get?, eq_comm (b := q)]
  split_ifs <;> rfl

/-- **C86.** The seven quantities have their published names and every other name is kept. -/
theorem C86_names (q : String) :
    (∀ t, (q, t) ∈ published → translateRelaxation q = t) ∧
    (q ∉ published.map Prod.fst → translateRelaxation q = q) := by
  rw [translate_eq]
  constructor
  · intro t ht
    simp only [published, List.mem_cons, Prod.mk.injEq, List.not_mem_nil, or_false] at ht
    rcases ht with ⟨rfl, rfl⟩ | ⟨rfl, rfl⟩ | ⟨rfl, rfl⟩ | ⟨rfl, rfl⟩ | ⟨rfl, rfl⟩ | ⟨rfl, rfl⟩ |
      ⟨rfl, rfl⟩ <;> rfl
  · intro h
    simp only [published, List.map_cons, List.map_nil, List.mem_cons, List.not_mem_nil, or_false,
      not_or] at h
    simp [h]


example : translateRelaxation "rot1" = "tau_R1" ∧ translateRelaxation "msr" = "msr" :=
  ⟨(C86_names "rot1").1 _ (by simp [published]), (C86_names "msr").2 (by simp [published])⟩

/-- **C86.** No two quantities get the same name, unless one of them already has a published name;
translating twice is translating once. -/
theorem C86_injective (a b : String) (ha : a ∉ published.map Prod.snd)
    (hb : b ∉ published.map Prod.snd) (h : translateRelaxation a = translateRelaxation b) :
    a = b ∧ translateRelaxation (translateRelaxation a) = translateRelaxation a := by
  have hidem : ∀ c, translateRelaxation (translateRelaxation c) = translateRelaxation c := by
    intro c
    rw [translate_eq c]
    split_ifs
    all_goals first
      | rfl
      | (rw [translate_eq]; simp [*])
  refine ⟨?_, hidem a⟩
  simp only [published, List.map_cons, List.map_nil, List.mem_cons, List.not_mem_nil, or_false,
    not_or] at ha hb
  rw [translate_eq, translate_eq] at h
  split_ifs at h <;> simp_all

example : "msd" ∉ published.map Prod.snd ∧ translateRelaxation "msd" = "diffusion_constant" := by
  decide

end Verif.RelaxTime
