import Verif.StepSize.Trace
/-!
# Properties C01–C10: `StepSize.py`
-/

namespace Verif.StepSize

/-! ## C01 -/

/-- **C01.** For `num_linear ≥ 1` the output of `generate_steps` is strictly increasing, ends with
`total`, begins with `start` (or is just `[total]`), and stays between `start` and `total`. -/
theorem C01_generate_steps_increasing (total nl start : Int) (hnl : 1 ≤ nl) :
    (generateSteps total nl start).Pairwise (· < ·) ∧
    (generateSteps total nl start).getLast? = some total ∧
    (start < total → (generateSteps total nl start).head? = some start) ∧
    (total ≤ start → generateSteps total nl start = [total]) ∧
    (start ≤ total → ∀ x ∈ generateSteps total nl start, start ≤ x ∧ x ≤ total) := by
  refine ⟨generateSteps_pairwise total nl start hnl, generateSteps_getLast total nl start hnl,
    ?_, generateSteps_of_ge total nl start hnl, ?_⟩
  · intro h
    rw [generateSteps_head total nl start hnl, if_pos h]
  · intro h x hx
    rw [mem_generateSteps _ _ _ _ hnl] at hx
    unfold Wants at hx
    omega

example : generateSteps 45 10 3 = [3, 4, 5, 6, 7, 8, 9, 10, 11, 12, 13, 23, 33, 43, 45] := by
  decide

example : (generateSteps 45 10 3).Pairwise (· < ·) :=
  (C01_generate_steps_increasing 45 10 3 (by decide)).1

/-! ## C02 -/

/-- **C02.** Exactly the decade grid (shifted by `start`) below `total`, and `total`. -/
theorem C02_generate_steps_grid (total nl start x : Int) (hnl : 1 ≤ nl) :
    x ∈ generateSteps total nl start ↔
      x = total ∨ (start ≤ x ∧ x < total ∧
        ∃ k i : Nat, (i : Int) ≤ nl ∧ x - start = i * 10 ^ k ∧
          (k = 0 ∨ nl * 10 ^ (k - 1) < i * 10 ^ k)) :=
  mem_generateSteps total nl start x hnl

example : (203 : Int) ∈ generateSteps 1000 10 3 :=
  (C02_generate_steps_grid 1000 10 3 203 (by decide)).2
    (Or.inr ⟨by decide, by decide, 2, 2, by decide, by decide, Or.inr (by decide)⟩)

/-! ## C03 -/

theorem expPass_shift (start nl curr size : Int) :
    expPass start nl (start + curr) size = (expPass 0 nl curr size).map (start + ·) := by
  unfold expPass
  rw [List.filter_map, List.filter_map, List.map_map]
  congr 1
  · funext i; simp
  · apply List.filter_congr
    intro i _
    simp

theorem expLoop_shift (start nl base : Int) (n : Nat) : ∀ (curr size : Int),
    expLoop start nl base n (start + curr) size =
      (expLoop 0 nl base n curr size).map (start + ·) := by
  induction n with
  | zero => intro curr size; rfl
  | succ n ih =>
    intro curr size
    rw [expLoop, expLoop, expPass_shift, List.map_append, ih, zero_add]

/-- **C03.** `start` only shifts the sequence, at every point of the infinite generator. -/
theorem C03_exp_sequence_shift (start nl iss base : Int) (n : Nat) :
    expSequence start nl iss base n = (expSequence 0 nl iss base n).map (start + ·) := by
  unfold expSequence
  have := expLoop_shift start nl base n 0 iss
  rw [add_zero] at this
  rw [this]
  simp

example : expSequence 100 3 2 5 2 = [100, 102, 104, 106, 110, 120, 130] := by decide

/-! ## C04 -/

/-- **C04 (termination).** For `num_linear ≥ 1` a number of passes exists after which the generator
is complete, and the answer does not change with more passes. -/
theorem C04_generate_steps_terminates (total nl start : Int) (hnl : 1 ≤ nl) :
    ∃ n, ∀ m, n ≤ m → runSteps total nl start m = some (generateSteps total nl start) :=
  ⟨enough total start, fun _ h => runSteps_eq_generateSteps total nl start hnl h⟩

/-- **C04 (divergence).** For `num_linear ≤ 0` and `start < total` the generator yields `start` and
then loops without yielding: no number of passes completes it. -/
theorem C04_generate_steps_hangs (total nl start : Int) (hnl : nl ≤ 0) (hs : start < total) (n : Nat) :
    expSequence start nl 1 10 n = [start] ∧ runSteps total nl start n = none := by
  -- every value `start + i*size` with `0 ≤ i ≤ nl ≤ 0` is `start` itself; it is yielded again only
  -- if the current step fell below `start`, which needs `nl < 0`, and then the range is empty
  have hpass : ∀ (curr size : Int), (nl = 0 → start ≤ curr) → expPass start nl curr size = [] := by
    intro curr size h
    rw [List.eq_nil_iff_forall_not_mem]
    intro x hx
    rw [mem_expPass] at hx
    obtain ⟨h1, i, hi, rfl⟩ := hx
    have hi0 : i = 0 := by omega
    have hn0 : nl = 0 := by omega
    subst hi0
    have := h hn0
    simp at h1
    omega
  have hloop : ∀ (n : Nat) (curr size : Int), (nl = 0 → start ≤ curr) →
      expLoop start nl 10 n curr size = [] := by
    intro n
    induction n with
    | zero => intro curr size _; rfl
    | succ n ih =>
      intro curr size h
      rw [expLoop, hpass curr size h, ih _ _ (by intro h0; subst h0; simp)]
      rfl
  have hseq : expSequence start nl 1 10 n = [start] := by
    unfold expSequence
    rw [hloop n start 1 (fun _ => le_refl _)]
  refine ⟨hseq, ?_⟩
  unfold runSteps
  simp only [hseq]
  simp [hs]

example : runSteps 100 0 7 1000 = none := (C04_generate_steps_hangs 100 0 7 (by decide) (by decide) 1000).2
example : runSteps 30 10 7 3 = some (generateSteps 30 10 7) := by decide

/-! ## C05 -/

theorem run_take (K : Nat) : ∀ (s : Series) (k : Nat), k ≤ K →
    (s.run k).1 = (s.run K).1.take k ∧ ((s.run k).2.1 = none ∨ (s.run k).2.1 = (s.run K).2.1) := by
  induction K with
  | zero => intro s k h; obtain rfl : k = 0 := by omega
            simp [Series.run]
  | succ K ih =>
    intro s k h
    cases k with
    | zero => simp [Series.run]
    | succ k =>
      unfold Series.run
      cases hn : s.next with
      | error e => simp
      | ok p =>
        obtain ⟨x, s'⟩ := p
        obtain ⟨h1, h2⟩ := ih s' k (by omega)
        simp only [List.take_succ_cons]
        exact ⟨by rw [h1], h2⟩

theorem run_more (K : Nat) : ∀ (s : Series) (k : Nat) (e : PyErr), K ≤ k → (s.run K).2.1 = some e →
    (s.run k).1 = (s.run K).1 ∧ (s.run k).2.1 = some e := by
  induction K with
  | zero => intro s k e _ h; simp [Series.run] at h
  | succ K ih =>
    intro s k e hk h
    obtain ⟨k, rfl⟩ : ∃ j, k = j + 1 := ⟨k - 1, by omega⟩
    unfold Series.run at h ⊢
    cases hn : s.next with
    | error e' => rw [hn] at h; simpa using h
    | ok p =>
      obtain ⟨x, s'⟩ := p
      rw [hn] at h
      obtain ⟨h1, h2⟩ := ih s' k e (by omega) h
      exact ⟨by simp only [h1], h2⟩

/-- **C05.** For `total ≥ 0`, `num_linear ≥ 1`, `gen_steps ≥ 1` iterating `GenerateStepSeries` never
raises anything but the final StopIteration whatever the number `k` of `next()` calls, the first
`k` calls produce the first `k` steps of the complete run, and the complete run is strictly
increasing from 0 to `total`. -/
theorem C05_series_runs_from_zero_to_total (total nl gen maxGen : Int) (ht : 0 ≤ total)
    (hnl : 1 ≤ nl) (hgen : 1 ≤ gen) :
    (∀ k, ((Series.init total nl gen maxGen).run k).1 = (seriesList total nl gen maxGen).take k ∧
      (((Series.init total nl gen maxGen).run k).2.1 = none ∨
        ((Series.init total nl gen maxGen).run k).2.1 = some .stopIteration)) ∧
    ((Series.init total nl gen maxGen).run (total.toNat + 2)).2.1 = some .stopIteration ∧
    ((seriesList total nl gen maxGen).map Prod.fst).Pairwise (· < ·) ∧
    ((seriesList total nl gen maxGen).map Prod.fst).head? = some 0 ∧
    ((seriesList total nl gen maxGen).map Prod.fst).getLast? = some total := by
  obtain ⟨starts', hT, hstop⟩ := series_trace total nl gen maxGen hnl (by omega) ht
  have h0 := zero_mem_steps hnl ht hT
  refine ⟨?_, hstop, hT.sorted, ?_, ?_⟩
  · intro k
    rcases Nat.le_total k (total.toNat + 2) with h | h
    · obtain ⟨h1, h2⟩ := run_take (total.toNat + 2) (Series.init total nl gen maxGen) k h
      rw [hstop] at h2
      exact ⟨h1, h2⟩
    · obtain ⟨h1, h2⟩ := run_more (total.toNat + 2) (Series.init total nl gen maxGen) k _ h hstop
      refine ⟨?_, Or.inr h2⟩
      rw [h1]
      have hlen := length_le_of_pairwise _ 0 total (by omega) hT.sorted
        (fun x hx => (hT.range x hx).2)
      rw [List.length_map] at hlen
      rw [seriesList, List.take_of_length_le]
      change ((seriesList total nl gen maxGen).length) ≤ k
      omega
  · exact head_of_sorted_min _ 0 hT.sorted h0 (fun x hx => (hT.range x hx).2.1)
  · refine last_of_sorted_max _ total hT.sorted ?_ (fun x hx => (hT.range x hx).2.2)
    refine hT.complete rfl 0 (by rw [hT.ext]; simp) total ?_ (by omega)
    rw [mem_generateSteps _ _ _ _ hnl]
    exact Or.inl rfl

example : (seriesList 25 10 20 2).map Prod.fst =
    [0, 1, 2, 3, 4, 5, 6, 7, 8, 9, 10, 20, 21, 22, 23, 24, 25] := by decide

example : ((seriesList 100000 100 20000 5).map Prod.fst).getLast? = some 100000 :=
  (C05_series_runs_from_zero_to_total 100000 100 20000 5 (by decide) (by decide) (by decide)).2.2.2.2

/-- **C05 (error branches).** Outside the stated range the first `next()` raises: KeyError for a
negative total (`del self.values[0]` of a step never stored), ZeroDivisionError for
`gen_steps = 0`. -/
theorem C05_series_error_branches (total nl gen maxGen : Int) (hnl : 1 ≤ nl) :
    (total < 0 → (Series.init total nl gen maxGen).next = .error .keyError) ∧
    (0 ≤ total → gen = 0 → (Series.init total nl gen maxGen).next = .error .zeroDivisionError) := by
  constructor
  · intro ht
    have hg := generateSteps_of_ge total nl 0 hnl (by omega)
    have hne : ¬ total = 0 := by omega
    simp [Series.init, Series.addGenerator, Series.enqueue, hg, Dict.get?, Dict.set, Series.next,
      minimum, Series.cleanup, hne, Dict.del, Dict.mem]
  · rintro ht rfl
    obtain ⟨rest, hg⟩ := generateSteps_eq_cons total nl 0 hnl ht
    simp [Series.init, Series.addGenerator, Series.enqueue, hg, Dict.get?, Dict.set, Series.next,
      minimum, Series.cleanup, Series.checkNew]

example : (Series.init (-5) 10 20 3).next = .error .keyError :=
  (C05_series_error_branches (-5) 10 20 3 (by decide)).1 (by decide)

/-! ## C06 -/

/-- **C06.** A step is produced iff some keyframe (first announced at step `st`) wants it. -/
theorem C06_series_is_union (total nl gen maxGen : Int) (ht : 0 ≤ total)
    (hnl : 1 ≤ nl) (hgen : 1 ≤ gen) (x : Int) :
    x ∈ (seriesList total nl gen maxGen).map Prod.fst ↔
      ∃ i st, firstStep (seriesList total nl gen maxGen) i = some st ∧ Wants total nl st x := by
  obtain ⟨starts', hT, _⟩ := series_trace total nl gen maxGen hnl (by omega) ht
  constructor
  · intro hx
    obtain ⟨st, hst, hw⟩ := hT.sound x hx
    obtain ⟨i, hi⟩ := List.mem_iff_getElem?.1 hst
    exact ⟨i, st, by rw [firstStep_eq hnl ht hT, hi], (mem_generateSteps _ _ _ _ hnl).1 hw⟩
  · rintro ⟨i, st, hf, hw⟩
    rw [firstStep_eq hnl ht hT] at hf
    have hst := List.mem_of_getElem? hf
    refine hT.complete rfl st hst x ((mem_generateSteps _ _ _ _ hnl).2 hw) ?_
    have h0 : 0 ≤ st := by
      rw [hT.ext, List.mem_append, List.mem_singleton] at hst
      rcases hst with rfl | h
      · exact le_refl _
      · have h2 := List.mem_of_mem_take h
        rw [List.mem_filter] at h2
        exact (hT.range st h2.1).2.1
    unfold Wants at hw
    omega

example : (43 : Int) ∈ (seriesList 100 10 20 3).map Prod.fst :=
  (C06_series_is_union 100 10 20 3 (by decide) (by decide) (by decide) 43).2
    ⟨2, 40, by decide, Or.inr ⟨by decide, by decide, 0, 3, by decide, by decide, Or.inl rfl⟩⟩

/-! ## C07 -/

/-- **C07.** After each `next()` that returned `x`, `get_index()` lists, without repetition, exactly
the keyframes that have started by then and want `x`. -/
theorem C07_get_index_exact (total nl gen maxGen : Int) (ht : 0 ≤ total)
    (hnl : 1 ≤ nl) (hgen : 1 ≤ gen) (x : Int) (idx : List Nat)
    (h : (x, idx) ∈ seriesList total nl gen maxGen) :
    idx.Nodup ∧ ∀ i, i ∈ idx ↔
      ∃ st, firstStep (seriesList total nl gen maxGen) i = some st ∧ st ≤ x ∧
        Wants total nl st x := by
  obtain ⟨starts', hT, _⟩ := series_trace total nl gen maxGen hnl (by omega) ht
  obtain ⟨h1, h2⟩ := hT.index (x, idx) h
  refine ⟨h1, ?_⟩
  intro i
  rw [h2]
  simp only [firstStep_eq hnl ht hT, mem_generateSteps _ _ _ _ hnl]

example : (30, [0, 1]) ∈ seriesList 50 10 20 3 := by decide

/-! ## C08 -/

/-- **C08.** Keyframe `i` starts at the `i`-th produced multiple of `gen_steps` (0 included), as long
as `i < max(1, max_gen)`; no other keyframe exists. -/
theorem C08_keyframes_at_multiples (total nl gen maxGen : Int) (ht : 0 ≤ total)
    (hnl : 1 ≤ nl) (hgen : 1 ≤ gen) (i : Nat) :
    firstStep (seriesList total nl gen maxGen) i =
      ((((seriesList total nl gen maxGen).map Prod.fst).filter
        (fun x => decide (gen ∣ x))).take (max 1 maxGen).toNat)[i]? := by
  obtain ⟨starts', hT, _⟩ := series_trace total nl gen maxGen hnl (by omega) ht
  rw [firstStep_eq hnl ht hT, starts_eq hnl ht hT]

/-- **C08 (bound).** Only indexes below `max(1, max_gen)` are ever announced. -/
theorem C08_keyframe_bound (total nl gen maxGen : Int) (ht : 0 ≤ total)
    (hnl : 1 ≤ nl) (hgen : 1 ≤ gen) (x : Int) (idx : List Nat)
    (h : (x, idx) ∈ seriesList total nl gen maxGen) (i : Nat) (hi : i ∈ idx) :
    (i : Int) < max 1 maxGen := by
  obtain ⟨st, hf, _⟩ := ((C07_get_index_exact total nl gen maxGen ht hnl hgen x idx h).2 i).1 hi
  rw [C08_keyframes_at_multiples total nl gen maxGen ht hnl hgen i] at hf
  have := (List.getElem?_eq_some_iff.1 hf).1
  rw [List.length_take] at this
  omega

example : firstStep (seriesList 100 10 20 3) 2 = some 40 := by decide
example : firstStep (seriesList 100 10 20 3) 3 = none := by decide

/-! ## C09 -/

/-- The full statement: keyframe `k` starts at `k*gen_steps`. -/
def KeyframesRegular (total nl gen maxGen : Int) : Prop :=
  ∀ k : Nat, (k : Int) < max 1 maxGen → k * gen ≤ total →
    firstStep (seriesList total nl gen maxGen) k = some (k * gen)

/-- **C09 is false in general**: with `num_linear = 1`, `gen_steps = 2` the step 2 is never produced
and keyframe 1 starts at 10. -/
theorem C09_keyframes_regular_refuted :
    ¬ (∀ total nl gen maxGen : Int, 0 ≤ total → 1 ≤ nl → 1 ≤ gen →
      KeyframesRegular total nl gen maxGen) := by
  intro h
  have := h 20 1 2 5 (by decide) (by decide) (by decide) 1 (by decide) (by decide)
  revert this
  decide

/-- The `k`-th element of a strictly increasing list of multiples of `g` that contains
`0, g, …, k*g`. -/
theorem getElem?_multiples (g : Int) (hg : 1 ≤ g) : ∀ (k : Nat) (a : Int) (l : List Int),
    l.Pairwise (· < ·) → (∀ x ∈ l, a ≤ x ∧ g ∣ x - a) → (∀ j : Nat, j ≤ k → a + j * g ∈ l) →
    l[k]? = some (a + k * g) := by
  intro k
  induction k with
  | zero =>
    intro a l hp hm hj
    have h0 := hj 0 (by omega)
    simp at h0
    have := head_of_sorted_min l a hp h0 (fun x hx => (hm x hx).1)
    rw [List.head?_eq_getElem?] at this
    simpa using this
  | succ k ih =>
    intro a l hp hm hj
    have h0 := hj 0 (by omega)
    simp at h0
    have hh := head_of_sorted_min l a hp h0 (fun x hx => (hm x hx).1)
    cases l with
    | nil => simp at hh
    | cons b l =>
      simp at hh
      subst hh
      rw [List.pairwise_cons] at hp
      rw [List.getElem?_cons_succ]
      have := ih (b + g) l hp.2 (by
        intro x hx
        have h1 := hp.1 x hx
        have h2 := (hm x (List.mem_cons_of_mem _ hx)).2
        have h3 : g ≤ x - b := Int.le_of_dvd (by omega) h2
        refine ⟨by omega, ?_⟩
        have : x - (b + g) = (x - b) - g := by ring
        rw [this]
        exact Int.dvd_sub h2 (Int.dvd_refl g)) (by
        intro j hjk
        have h1 := hj (j + 1) (by omega)
        have e : b + ((j + 1 : Nat) : Int) * g = b + g + j * g := by push_cast; ring
        rw [e] at h1
        rw [List.mem_cons] at h1
        rcases h1 with h1 | h1
        · have : (0:Int) ≤ j * g := by positivity
          omega
        · exact h1)
      rw [this]
      congr 1
      push_cast; ring

/-- **C09 (partial).** The full statement is `KeyframesRegular`, false in general
(`C09_keyframes_regular_refuted`).  It holds whenever `gen_steps` itself is on the decade grid of
`num_linear` (as for the defaults: 200000 = 20·10⁴ with `num_linear = 100`). -/
theorem C09_keyframes_regular_partial (total nl gen maxGen : Int) (ht : 0 ≤ total)
    (hnl : 1 ≤ nl) (hgen : 1 ≤ gen) (hgrid : OnGrid nl gen) :
    KeyframesRegular total nl gen maxGen := by
  intro k
  induction k using Nat.strong_induction_on with
  | _ k ih =>
    intro hk hkt
    have hall : ∀ j : Nat, j ≤ k → (0:Int) + j * gen ∈
        ((seriesList total nl gen maxGen).map Prod.fst).filter (fun x => decide (gen ∣ x)) := by
      intro j hj
      rw [List.mem_filter, zero_add]
      have hjt : (j : Int) * gen ≤ total := by
        have : (j : Int) * gen ≤ k * gen :=
          mul_le_mul_of_nonneg_right (by exact_mod_cast hj) (by omega)
        omega
      refine ⟨?_, by simp⟩
      rw [C06_series_is_union total nl gen maxGen ht hnl hgen]
      cases j with
      | zero =>
        obtain ⟨starts', hT, _⟩ := series_trace total nl gen maxGen hnl (by omega) ht
        refine ⟨0, 0, ?_, ?_⟩
        · rw [firstStep_eq hnl ht hT, hT.ext]; simp
        · simp only [Nat.cast_zero, zero_mul]
          rw [← mem_generateSteps _ _ _ _ hnl]
          obtain ⟨r, h⟩ := generateSteps_eq_cons total nl 0 hnl ht
          rw [h]; simp
      | succ j =>
        have hjt' : (j : Int) * gen ≤ total := by
          push_cast at hjt
          nlinarith
        have := ih j (by omega) (by omega) hjt'
        refine ⟨j, j * gen, this, ?_⟩
        have e : ((j + 1 : Nat) : Int) * gen = j * gen + gen := by push_cast; ring
        unfold Wants
        rw [e] at hjt ⊢
        by_cases he : (j : Int) * gen + gen = total
        · exact Or.inl he
        · right
          refine ⟨by omega, by omega, ?_⟩
          have : (j : Int) * gen + gen - j * gen = gen := by ring
          rw [this]; exact hgrid
    rw [C08_keyframes_at_multiples total nl gen maxGen ht hnl hgen k, List.getElem?_take,
      if_pos (by omega)]
    obtain ⟨starts', hT, _⟩ := series_trace total nl gen maxGen hnl (by omega) ht
    have := getElem?_multiples gen hgen k 0 _ (hT.sorted.filter _) (by
      intro x hx
      rw [List.mem_filter] at hx
      exact ⟨(hT.range x hx.1).2.1, by simpa using hx.2⟩) hall
    rw [this, zero_add]

/-- The default parameters (`num_linear = 100`, `gen_steps = 200000`) are on the grid. -/
example : OnGrid 100 200000 := ⟨4, 20, by decide, by decide, Or.inr (by decide)⟩

/-! ## C10 -/

/-- **C10.** With `max_gen ≤ 1`, or `gen_steps > total`, the series is `generate_steps`. -/
theorem C10_single_series (total nl gen maxGen : Int) (ht : 0 ≤ total)
    (hnl : 1 ≤ nl) (hgen : 1 ≤ gen) (h1 : maxGen ≤ 1 ∨ total < gen) :
    (seriesList total nl gen maxGen).map Prod.fst = generateSteps total nl 0 ∧
    ∀ p ∈ seriesList total nl gen maxGen, p.2 = [0] := by
  obtain ⟨starts', hT, _⟩ := series_trace total nl gen maxGen hnl (by omega) ht
  have hst : starts' = [0] := by
    rw [hT.ext]
    rcases h1 with h | h
    · have : (maxGen - (([0] : List Int).length : Int)).toNat = 0 := by simp; omega
      rw [this]; rfl
    · have : ((seriesList total nl gen maxGen).map Prod.fst).filter
          (fun x => decide (x % gen = 0 ∧ x > 0)) = [] := by
        rw [List.filter_eq_nil_iff]
        intro x hx
        have hr := hT.range x hx
        simp only [decide_eq_true_eq, not_and, gt_iff_lt, not_lt]
        intro hx0
        rw [Int.emod_eq_of_lt hr.2.1 (by omega)] at hx0
        omega
      rw [this]; simp
  refine ⟨?_, ?_⟩
  · apply sorted_ext _ _ hT.sorted (generateSteps_pairwise total nl 0 hnl)
    intro x
    constructor
    · intro hx
      obtain ⟨st, h2, h3⟩ := hT.sound x hx
      rw [hst, List.mem_singleton] at h2
      rwa [h2] at h3
    · intro hx
      refine hT.complete rfl 0 (by rw [hst]; simp) x hx ?_
      have := start_le_of_mem total nl 0 x hnl ht hx
      omega
  · intro p hp
    obtain ⟨hnd, hidx⟩ := hT.index p hp
    have hsub : ∀ i ∈ p.2, i = 0 := by
      intro i hi
      obtain ⟨st, hs, _⟩ := (hidx i).1 hi
      rw [hst] at hs
      cases i with
      | zero => rfl
      | succ i => simp at hs
    have h0 : 0 ∈ p.2 := by
      obtain ⟨st, h2, h3⟩ := hT.sound p.1 (List.mem_map_of_mem hp)
      rw [hst, List.mem_singleton] at h2
      subst h2
      rw [hidx]
      exact ⟨0, by rw [hst]; rfl, (hT.range p.1 (List.mem_map_of_mem hp)).2.1, h3⟩
    match hl : p.2 with
    | [] => rw [hl] at h0; simp at h0
    | [a] => rw [hl] at hsub; rw [hsub a (by simp)]
    | a :: b :: l =>
      rw [hl] at hsub hnd
      have ha := hsub a (by simp)
      have hb := hsub b (by simp)
      rw [ha, hb] at hnd
      simp at hnd

example : (seriesList 35 10 10 1).map Prod.fst = generateSteps 35 10 0 :=
  (C10_single_series 35 10 10 1 (by decide) (by decide) (by decide) (Or.inl (by decide))).1

end Verif.StepSize
