import Verif.StepSize.Lemmas
/-!
# Invariant of `GenerateStepSeries`

`rems[i]` is what generator `i` still has to deliver *including* the step it has pending in the
queue.
-/

namespace Verif.StepSize

/-- Entry list of a step in the `values` dictionary. -/
def Series.vals (s : Series) (k : Int) : List Nat := (s.values.get? k).getD []

/-- `i` is pending at step `k`. -/
def Pending (rems : List (List Int)) (i : Nat) (k : Int) : Prop :=
  ∃ r, rems[i]? = some r ∧ r.head? = some k

structure Core (s : Series) (rems : List (List Int)) (c : Int) : Prop where
  iters : s.iters = rems.map List.tail
  mem : ∀ k, c < k → ∀ i, i ∈ s.vals k ↔ Pending rems i k
  nodup : ∀ k, c < k → (s.vals k).Nodup
  nonempty : ∀ k, c < k → s.values.get? k ≠ some []
  qnodup : s.queue.Nodup
  queue : ∀ x, x ∈ s.queue ↔ c < x ∧ (s.values.get? x).isSome

theorem minimum_mem : ∀ (l : List Int) (m : Int), minimum l = some m → m ∈ l ∧ ∀ x ∈ l, m ≤ x := by
  intro l
  induction l with
  | nil => intro m h; simp [minimum] at h
  | cons a l ih =>
    intro m h
    simp only [minimum] at h
    cases hm : minimum l with
    | none =>
      rw [hm] at h
      simp only [Option.some.injEq] at h
      subst h
      have : l = [] := by
        cases l with
        | nil => rfl
        | cons b l =>
          simp only [minimum] at hm
          cases h2 : minimum l <;> simp [h2] at hm
      subst this
      simp
    | some m' =>
      rw [hm] at h
      simp only [Option.some.injEq] at h
      obtain ⟨h1, h2⟩ := ih m' hm
      split at h
      · subst h
        refine ⟨by simp, ?_⟩
        intro x hx
        rw [List.mem_cons] at hx
        rcases hx with rfl | hx
        · exact le_refl _
        · have := h2 x hx; omega
      · subst h
        refine ⟨List.mem_cons_of_mem _ h1, ?_⟩
        intro x hx
        rw [List.mem_cons] at hx
        rcases hx with rfl | hx
        · omega
        · exact h2 x hx

theorem minimum_none (l : List Int) : minimum l = none ↔ l = [] := by
  cases l with
  | nil => simp [minimum]
  | cons a l =>
    simp only [minimum, reduceCtorEq, iff_false]
    cases minimum l <;> simp

theorem enqueue_config (s : Series) (i : Nat) :
    (s.enqueue i).total = s.total ∧ (s.enqueue i).numLinear = s.numLinear ∧
    (s.enqueue i).genSteps = s.genSteps ∧ (s.enqueue i).maxGen = s.maxGen ∧
    (s.enqueue i).currStep = s.currStep := by
  unfold Series.enqueue
  split
  · simp
  · simp
  · dsimp only
    split <;> simp

/-- Effect of `_enqueue` on the dictionary away from the delivered step. -/
theorem enqueue_get? (s : Series) (i : Nat) (k : Int)
    (h : ∀ r, s.iters[i]? = some r → r.head? ≠ some k) :
    (s.enqueue i).values.get? k = s.values.get? k := by
  unfold Series.enqueue
  split
  · rfl
  · rfl
  · rename_i step rest hi
    have hne : ¬ step = k := by
      have := h _ hi
      simpa using this
    dsimp only
    split <;> simp [Dict.get?_set, hne]

theorem enqueue_core (s : Series) (rems : List (List Int)) (m : Int) (i : Nat) (hd : Int)
    (rest : List Int) (hc : Core s rems m) (hi : rems[i]? = some (hd :: rest)) (hm : hd ≤ m)
    (hrest : ∀ x ∈ rest, m < x) : Core (s.enqueue i) (rems.set i rest) m := by
  have hlen : i < rems.length := by
    rw [List.getElem?_eq_some_iff] at hi; exact hi.1
  have hit : s.iters[i]? = some rest := by
    rw [hc.iters, List.getElem?_map, hi]; rfl
  have hpend : ∀ k, m < k → ∀ j, j ≠ i → (Pending (rems.set i rest) j k ↔ Pending rems j k) := by
    intro k _ j hj
    unfold Pending
    rw [List.getElem?_set_ne (by omega)]
  have hnot : ∀ k, m < k → ¬ Pending rems i k := by
    rintro k hk ⟨r, hr, hh⟩
    rw [hi] at hr
    cases hr
    simp at hh
    omega
  unfold Series.enqueue
  rw [hit]
  cases rest with
  | nil =>
    dsimp only
    refine ⟨?_, ?_, hc.nodup, hc.nonempty, hc.qnodup, hc.queue⟩
    · rw [hc.iters, List.map_set]
      apply List.ext_getElem?
      intro j
      by_cases hj : j = i
      · subst hj
        rw [List.getElem?_map, hi, List.getElem?_set_self (by simpa using hlen)]
        rfl
      · rw [List.getElem?_set_ne (by omega)]
    · intro k hk j
      rw [hc.mem k hk j]
      by_cases hj : j = i
      · subst hj
        have h1 := hnot k hk
        simp only [h1, false_iff]
        rintro ⟨r, hr, hh⟩
        rw [List.getElem?_set_self hlen] at hr
        cases hr
        simp at hh
      · rw [hpend k hk j hj]
  | cons step rest' =>
    have hstep : m < step := hrest step (by simp)
    dsimp only
    have hiters : s.iters.set i rest' = (rems.set i (step :: rest')).map List.tail := by
      rw [hc.iters, List.map_set]; rfl
    have hself : ∀ k, Pending (rems.set i (step :: rest')) i k ↔ k = step := by
      intro k
      unfold Pending
      rw [List.getElem?_set_self hlen]
      constructor
      · rintro ⟨r, hr, hh⟩
        cases hr
        simpa using hh.symm
      · rintro rfl
        exact ⟨_, rfl, rfl⟩
    split
    · rename_i temp ht
      refine ⟨hiters, ?_, ?_, ?_, hc.qnodup, ?_⟩
      · intro k hk j
        have hv := hc.mem k hk j
        by_cases hks : step = k
        · subst hks
          simp only [Series.vals, Dict.get?_set, if_true, Option.getD_some, List.mem_append,
            List.mem_singleton]
          simp only [Series.vals, ht, Option.getD_some] at hv
          by_cases hj : j = i
          · subst hj
            simp [hself]
          · rw [hpend step hk j hj, ← hv]
            simp [hj]
        · simp only [Series.vals, Dict.get?_set, hks, if_false]
          simp only [Series.vals] at hv
          rw [hv]
          by_cases hj : j = i
          · subst hj
            have := hnot k hk
            simp only [this, hself, false_iff]
            exact fun e => hks e.symm
          · rw [hpend k hk j hj]
      · intro k hk
        have hn := hc.nodup k hk
        by_cases hks : step = k
        · subst hks
          simp only [Series.vals, Dict.get?_set, if_true, Option.getD_some]
          simp only [Series.vals, ht, Option.getD_some] at hn
          rw [List.nodup_append]
          refine ⟨hn, by simp, ?_⟩
          intro a ha b hb
          simp only [List.mem_singleton] at hb
          subst hb
          rintro rfl
          have := (hc.mem step hk a).1 (by simpa [Series.vals, ht] using ha)
          exact hnot step hk this
        · simpa only [Series.vals, Dict.get?_set, hks, if_false] using hn
      · intro k hk
        rw [Dict.get?_set]
        by_cases hks : step = k
        · simp [hks]
        · rw [if_neg hks]; exact hc.nonempty k hk
      · intro x
        rw [hc.queue x, Dict.get?_set]
        by_cases hks : step = x
        · subst hks; simp [ht]
        · simp [hks]
    · rename_i ht
      have hnq : step ∉ s.queue := by
        rw [hc.queue]; simp [ht]
      refine ⟨hiters, ?_, ?_, ?_, ?_, ?_⟩
      · intro k hk j
        have hv := hc.mem k hk j
        by_cases hks : step = k
        · subst hks
          simp only [Series.vals, Dict.get?_set, if_true, Option.getD_some,
            List.mem_singleton]
          simp only [Series.vals, ht, Option.getD_none, List.not_mem_nil, false_iff] at hv
          by_cases hj : j = i
          · subst hj
            simp [hself]
          · rw [hpend step hk j hj]
            simp [hj, hv]
        · simp only [Series.vals, Dict.get?_set, hks, if_false]
          simp only [Series.vals] at hv
          rw [hv]
          by_cases hj : j = i
          · subst hj
            have := hnot k hk
            simp only [this, hself, false_iff]
            exact fun e => hks e.symm
          · rw [hpend k hk j hj]
      · intro k hk
        have hn := hc.nodup k hk
        by_cases hks : step = k
        · subst hks
          simp [Series.vals, Dict.get?_set]
        · simpa only [Series.vals, Dict.get?_set, hks, if_false] using hn
      · intro k hk
        rw [Dict.get?_set]
        by_cases hks : step = k
        · simp [hks]
        · rw [if_neg hks]; exact hc.nonempty k hk
      · dsimp only
        rw [List.nodup_append]
        refine ⟨hc.qnodup, by simp, ?_⟩
        intro a ha b hb
        simp only [List.mem_singleton] at hb
        subst hb
        rintro rfl
        exact hnq ha
      · intro x
        dsimp only
        rw [List.mem_append, List.mem_singleton, hc.queue x, Dict.get?_set]
        by_cases hks : step = x
        · subst hks; simp [hstep]
        · have : ¬ x = step := fun e => hks e.symm
          simp [hks, this]

/-- Loop over the entries of the current step. -/
theorem enqueueAll_core (L : List Nat) (hL : L.Nodup) (m : Int) (rems : List (List Int))
    (hhead : ∀ i ∈ L, ∃ rest, rems[i]? = some (m :: rest) ∧ ∀ x ∈ rest, m < x) :
    ∀ (fuel j : Nat) (s : Series) (rj : List (List Int)), L.length < fuel + j →
      Core s rj m → s.currStep = m → s.values.get? m = some L →
      (∀ k, k < m → s.values.get? k = none) →
      (∀ i, rj[i]? = if i ∈ L.take j then (rems[i]?).map List.tail else rems[i]?) →
      ∃ rf, Core (s.enqueueAll fuel j) rf m ∧ (s.enqueueAll fuel j).currStep = m ∧
        (s.enqueueAll fuel j).values.get? m = some L ∧
        (∀ k, k < m → (s.enqueueAll fuel j).values.get? k = none) ∧
        (∀ i, rf[i]? = if i ∈ L then (rems[i]?).map List.tail else rems[i]?) ∧
        (s.enqueueAll fuel j).total = s.total ∧ (s.enqueueAll fuel j).numLinear = s.numLinear ∧
        (s.enqueueAll fuel j).genSteps = s.genSteps ∧ (s.enqueueAll fuel j).maxGen = s.maxGen := by
  intro fuel
  induction fuel with
  | zero =>
    intro j s rj hf hc hcs hg hlt hr
    refine ⟨rj, hc, hcs, hg, hlt, ?_, rfl, rfl, rfl, rfl⟩
    intro i
    rw [hr i, List.take_of_length_le (by omega)]
  | succ fuel ih =>
    intro j s rj hf hc hcs hg hlt hr
    unfold Series.enqueueAll
    rw [hcs, hg, Option.getD_some]
    cases hj : L[j]? with
    | none =>
      refine ⟨rj, hc, hcs, hg, hlt, ?_, rfl, rfl, rfl, rfl⟩
      intro i
      rw [List.getElem?_eq_none_iff] at hj
      rw [hr i, List.take_of_length_le hj]
    | some i =>
      have hjl := (List.getElem?_eq_some_iff.1 hj).1
      have hij : L[j] = i := (List.getElem?_eq_some_iff.1 hj).2
      have hmem : i ∈ L := List.mem_of_getElem? hj
      obtain ⟨rest, hri, hrest⟩ := hhead i hmem
      have hnt : i ∉ L.take j := by
        intro h
        have hnd : (L.take j ++ L.drop j).Nodup := by rw [List.take_append_drop]; exact hL
        rw [List.nodup_append] at hnd
        exact hnd.2.2 i h i (by rw [List.drop_eq_getElem_cons hjl, hij]; simp) rfl
      have hrji : rj[i]? = some (m :: rest) := by rw [hr i, if_neg hnt, hri]
      have hcore := enqueue_core s rj m i m rest hc hrji (le_refl _) hrest
      have hcfg := enqueue_config s i
      have hget : ∀ k, k ≤ m → (s.enqueue i).values.get? k = s.values.get? k := by
        intro k hk
        apply enqueue_get?
        intro r hr' hh
        rw [hc.iters, List.getElem?_map, hrji] at hr'
        cases hr'
        have : k ∈ rest := List.mem_of_head? hh
        have := hrest k this
        omega
      have := ih (j + 1) (s.enqueue i) (rj.set i rest) (by omega) hcore (by rw [hcfg.2.2.2.2, hcs])
        (by rw [hget m (le_refl _), hg]) (fun k hk => by rw [hget k (by omega)]; exact hlt k hk)
        (by
          intro i'
          have htake : L.take (j + 1) = L.take j ++ [i] := by
            rw [List.take_succ_eq_append_getElem hjl, hij]
          rw [htake]
          by_cases hii : i' = i
          · subst hii
            have hlen : i' < rj.length := (List.getElem?_eq_some_iff.1 hrji).1
            rw [List.getElem?_set_self hlen, if_pos (by simp), hri]
            rfl
          · rw [List.getElem?_set_ne (by omega), hr i']
            simp [hii])
      obtain ⟨rf, h1, h2, h3, h4, h5, h6, h7, h8, h9⟩ := this
      exact ⟨rf, h1, h2, h3, h4, h5, by rw [h6, hcfg.1], by rw [h7, hcfg.2.1],
        by rw [h8, hcfg.2.2.1], by rw [h9, hcfg.2.2.2.1]⟩

end Verif.StepSize
