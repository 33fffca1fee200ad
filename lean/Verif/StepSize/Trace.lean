import Verif.StepSize.SeriesInv
/-!
# Whole runs of `GenerateStepSeries`
-/

namespace Verif.StepSize

/-- What is known of the output `out` of a run that started with generators `starts` after step
`c`, ended with `e`, and finally had generators `starts'`. -/
structure TraceOK (total nl gen maxGen c : Int) (starts : List Int) (out : List (Int × List Nat))
    (e : Option PyErr) (fuel : Nat) (starts' : List Int) : Prop where
  ext : starts' = starts ++ ((out.map Prod.fst).filter
    (fun x => decide (x % gen = 0 ∧ x > 0))).take (maxGen - starts.length).toNat
  sorted : (out.map Prod.fst).Pairwise (· < ·)
  range : ∀ x ∈ out.map Prod.fst, c < x ∧ 0 ≤ x ∧ x ≤ total
  stop : e = some .stopIteration ∨ (e = none ∧ out.length = fuel)
  index : ∀ p ∈ out, p.2.Nodup ∧ ∀ i, i ∈ p.2 ↔
    ∃ st, starts'[i]? = some st ∧ st ≤ p.1 ∧ p.1 ∈ generateSteps total nl st
  complete : e = some .stopIteration →
    ∀ st ∈ starts', ∀ x ∈ generateSteps total nl st, c < x → x ∈ out.map Prod.fst
  sound : ∀ x ∈ out.map Prod.fst, ∃ st ∈ starts', x ∈ generateSteps total nl st

theorem run_trace (total nl gen maxGen : Int) (hnl : 1 ≤ nl) (hgen : gen ≠ 0) (ht : 0 ≤ total) :
    ∀ (fuel : Nat) (c : Int) (s : Series) (starts : List Int),
      Inv total nl gen maxGen c s starts →
      ∃ starts', TraceOK total nl gen maxGen c starts (s.run fuel).1 (s.run fuel).2.1 fuel
        starts' := by
  intro fuel
  induction fuel with
  | zero =>
    intro c s starts hI
    refine ⟨starts, ?_⟩
    unfold Series.run
    constructor <;> simp
  | succ fuel ih =>
    intro c s starts hI
    unfold Series.run
    cases hm : minimum s.queue with
    | none =>
      obtain ⟨h1, h2⟩ := next_stop total nl gen maxGen c s starts hI ((minimum_none _).1 hm)
      rw [h1]
      refine ⟨starts, ?_⟩
      refine ⟨by simp, by simp, by simp, Or.inl rfl, by simp, ?_, by simp⟩
      intro _ st hst x hx hcx
      have := h2 st hst x hx
      omega
    | some m =>
      obtain ⟨s', h1, hcm, hm0, hI', hnd, hidx, hmin, hex⟩ :=
        next_step total nl gen maxGen hnl hgen ht c s starts hI m hm
      rw [h1]
      obtain ⟨starts', hT⟩ := ih m s' _ hI'
      dsimp only
      generalize hr : s'.run fuel = r at hT ⊢
      obtain ⟨out, e, s''⟩ := r
      simp only at hT ⊢
      have hmt : m ≤ total := by
        obtain ⟨st, _, hx⟩ := hex
        exact le_total_of_mem total nl st m hnl hx
      -- generators created later start later
      have hlater : ∀ st ∈ starts', st ∈ newStarts gen maxGen starts m ∨ m < st := by
        intro st hst
        rw [hT.ext, List.mem_append] at hst
        rcases hst with h | h
        · exact Or.inl h
        · right
          have h2 := List.mem_of_mem_take h
          rw [List.mem_filter] at h2
          exact (hT.range st h2.1).1
      have hprefix : ∀ (i : Nat) (st : Int), (newStarts gen maxGen starts m)[i]? = some st →
          starts'[i]? = some st := by
        intro i st h
        rw [hT.ext, List.getElem?_append_left (List.getElem?_eq_some_iff.1 h).1, h]
      have hle : ∀ st ∈ newStarts gen maxGen starts m, 0 ≤ st ∧ st ≤ total ∧ st ≤ m := by
        intro st h
        have hb := hI'.bound st h
        exact ⟨hb.1, hb.2.1, by omega⟩
      refine ⟨starts', ?_⟩
      refine ⟨?_, ?_, ?_, ?_, ?_, ?_, ?_⟩
      · rw [hT.ext, List.map_cons, List.filter_cons]
        unfold newStarts
        by_cases hc1 : m % gen = 0 ∧ m > 0
        · by_cases hc2 : (starts.length : Int) < maxGen
          · rw [if_pos ⟨hc1.1, hc1.2, hc2⟩, if_pos (by simpa using hc1)]
            have : (maxGen - (starts.length : Int)).toNat
                = (maxGen - ((starts ++ [m]).length : Int)).toNat + 1 := by
              simp; omega
            rw [this, List.take_succ_cons]
            simp
          · rw [if_neg (fun h => hc2 h.2.2), if_pos (by simpa using hc1)]
            have : (maxGen - (starts.length : Int)).toNat = 0 := by omega
            rw [this]
            simp
        · rw [if_neg (fun h => hc1 ⟨h.1, h.2.1⟩), if_neg (by simpa using hc1)]
      · rw [List.map_cons, List.pairwise_cons]
        exact ⟨fun x hx => (hT.range x hx).1, hT.sorted⟩
      · intro x hx
        rw [List.map_cons, List.mem_cons] at hx
        rcases hx with rfl | hx
        · exact ⟨hcm, hm0, hmt⟩
        · have := hT.range x hx
          exact ⟨by omega, this.2⟩
      · rcases hT.stop with h | ⟨h, h'⟩
        · exact Or.inl h
        · exact Or.inr ⟨h, by simp [h']⟩
      · intro p hp
        rw [List.mem_cons] at hp
        rcases hp with rfl | hp
        · refine ⟨hnd, ?_⟩
          intro i
          rw [hidx]
          constructor
          · rintro ⟨st, hs, hx⟩
            exact ⟨st, hprefix i st hs, (hle st (List.mem_of_getElem? hs)).2.2, hx⟩
          · rintro ⟨st, hs, hle', hx⟩
            refine ⟨st, ?_, hx⟩
            rw [hT.ext] at hs
            by_cases hi : i < (newStarts gen maxGen starts m).length
            · rwa [List.getElem?_append_left hi] at hs
            · exfalso
              rw [List.getElem?_append_right (by omega)] at hs
              have h2 := List.mem_of_mem_take (List.mem_of_getElem? hs)
              rw [List.mem_filter] at h2
              have := (hT.range st h2.1).1
              simp only at hle'
              omega
        · exact hT.index p hp
      · intro he st hst x hx hcx
        rw [List.map_cons, List.mem_cons]
        by_cases hmx : m < x
        · right; exact hT.complete he st hst x hx hmx
        · left
          have hxm : x ≤ m := by omega
          rcases hlater st hst with h | h
          · have hst2 := hle st h
            unfold newStarts at h
            split at h
            · rw [List.mem_append, List.mem_singleton] at h
              rcases h with h | h
              · have := hmin st h x hx hcx
                simp only; omega
              · subst h
                have := start_le_of_mem total nl st x hnl hmt hx
                simp only; omega
            · have := hmin st h x hx hcx
              simp only; omega
          · exfalso
            have hst3 : st ≤ total := by
              rw [hT.ext, List.mem_append] at hst
              rcases hst with h' | h'
              · exact (hle st h').2.1
              · have h2 := List.mem_of_mem_take h'
                rw [List.mem_filter] at h2
                exact (hT.range st h2.1).2.2
            have := start_le_of_mem total nl st x hnl hst3 hx
            omega
      · intro x hx
        rw [List.map_cons, List.mem_cons] at hx
        rcases hx with rfl | hx
        · obtain ⟨st, hst, hxx⟩ := hex
          refine ⟨st, ?_, hxx⟩
          rw [hT.ext, List.mem_append]
          left
          unfold newStarts
          split
          · exact List.mem_append_left _ hst
          · exact hst
        · exact hT.sound x hx

/-- A strictly increasing list of integers in `[a, b]` has at most `b - a + 1` elements. -/
theorem length_le_of_pairwise (l : List Int) : ∀ (a b : Int), a ≤ b + 1 → l.Pairwise (· < ·) →
    (∀ x ∈ l, a ≤ x ∧ x ≤ b) → (l.length : Int) ≤ b - a + 1 := by
  induction l with
  | nil => intro a b h _ _; simp; omega
  | cons y l ih =>
    intro a b h hp hr
    rw [List.pairwise_cons] at hp
    have hy := hr y (by simp)
    have := ih (y + 1) b (by omega) hp.2 (by
      intro x hx
      have h1 := hp.1 x hx
      have h2 := hr x (List.mem_cons_of_mem _ hx)
      omega)
    simp only [List.length_cons]
    push_cast
    omega

/-- Everything about a complete run. -/
theorem series_trace (total nl gen maxGen : Int) (hnl : 1 ≤ nl) (hgen : gen ≠ 0) (ht : 0 ≤ total) :
    ∃ starts', TraceOK total nl gen maxGen (-1) [0] (seriesList total nl gen maxGen)
      (some .stopIteration) (total.toNat + 2) starts' ∧
      ((Series.init total nl gen maxGen).run (total.toNat + 2)).2.1 = some .stopIteration := by
  obtain ⟨starts', hT⟩ := run_trace total nl gen maxGen hnl hgen ht (total.toNat + 2) (-1) _ [0]
    (init_inv total nl gen maxGen hnl ht)
  have hstop : ((Series.init total nl gen maxGen).run (total.toNat + 2)).2.1
      = some .stopIteration := by
    rcases hT.stop with h | ⟨_, h⟩
    · exact h
    · exfalso
      have := length_le_of_pairwise _ 0 total (by omega) hT.sorted (fun x hx => (hT.range x hx).2)
      rw [List.length_map, h] at this
      omega
  refine ⟨starts', ?_, hstop⟩
  rw [hstop] at hT
  exact hT

theorem zero_mem_steps {total nl gen maxGen : Int} (hnl : 1 ≤ nl) (ht : 0 ≤ total)
    {out : List (Int × List Nat)} {fuel : Nat} {starts' : List Int}
    (hT : TraceOK total nl gen maxGen (-1) [0] out (some .stopIteration) fuel starts') :
    0 ∈ out.map Prod.fst := by
  refine hT.complete rfl 0 ?_ 0 ?_ (by omega)
  · rw [hT.ext]; simp
  · obtain ⟨r, h⟩ := generateSteps_eq_cons total nl 0 hnl ht
    rw [h]; simp

theorem head_of_sorted_min (l : List Int) (a : Int) (h : l.Pairwise (· < ·)) (ha : a ∈ l)
    (hmin : ∀ x ∈ l, a ≤ x) : l.head? = some a := by
  cases l with
  | nil => simp at ha
  | cons b l =>
    rw [List.mem_cons] at ha
    rw [List.pairwise_cons] at h
    rcases ha with rfl | ha
    · rfl
    · have h1 := h.1 a ha
      have h2 := hmin b (by simp)
      omega

theorem last_of_sorted_max (l : List Int) (a : Int) (h : l.Pairwise (· < ·)) (ha : a ∈ l)
    (hmax : ∀ x ∈ l, x ≤ a) : l.getLast? = some a := by
  induction l with
  | nil => simp at ha
  | cons b l ih =>
    rw [List.pairwise_cons] at h
    cases l with
    | nil => simp at ha; simp [ha]
    | cons d l =>
      rw [List.getLast?_cons_cons]
      apply ih h.2
      · rw [List.mem_cons] at ha
        rcases ha with rfl | ha
        · have h1 := h.1 d (by simp)
          have h2 := hmax d (by simp)
          omega
        · exact ha
      · intro x hx; exact hmax x (List.mem_cons_of_mem _ hx)

theorem sorted_ext : ∀ (l₁ l₂ : List Int), l₁.Pairwise (· < ·) → l₂.Pairwise (· < ·) →
    (∀ x, x ∈ l₁ ↔ x ∈ l₂) → l₁ = l₂ := by
  intro l₁
  induction l₁ with
  | nil =>
    intro l₂ _ _ h
    symm
    rw [List.eq_nil_iff_forall_not_mem]
    intro x hx
    exact absurd ((h x).2 hx) (by simp)
  | cons a l ih =>
    intro l₂ h1 h2 h
    cases l₂ with
    | nil => exact absurd ((h a).1 (by simp)) (by simp)
    | cons b m =>
      rw [List.pairwise_cons] at h1 h2
      have hab : a = b := by
        have ha := (h a).1 (by simp)
        have hb := (h b).2 (by simp)
        rw [List.mem_cons] at ha hb
        rcases ha with ha | ha
        · exact ha
        · rcases hb with hb | hb
          · exact hb.symm
          · have := h2.1 a ha
            have := h1.1 b hb
            omega
      subst hab
      congr 1
      apply ih m h1.2 h2.2
      intro x
      constructor
      · intro hx
        have := (h x).1 (List.mem_cons_of_mem _ hx)
        rw [List.mem_cons] at this
        rcases this with rfl | h'
        · have := h1.1 x hx; omega
        · exact h'
      · intro hx
        have := (h x).2 (List.mem_cons_of_mem _ hx)
        rw [List.mem_cons] at this
        rcases this with rfl | h'
        · have := h2.1 x hx; omega
        · exact h'

/-- The starts of the generators are the produced multiples of `gen_steps`. -/
theorem starts_eq {total nl gen maxGen : Int} (hnl : 1 ≤ nl) (ht : 0 ≤ total)
    {out : List (Int × List Nat)} {fuel : Nat} {starts' : List Int}
    (hT : TraceOK total nl gen maxGen (-1) [0] out (some .stopIteration) fuel starts') :
    starts' = ((out.map Prod.fst).filter (fun x => decide (gen ∣ x))).take (max 1 maxGen).toNat := by
  have h0 := zero_mem_steps hnl ht hT
  have hhead := head_of_sorted_min _ 0 hT.sorted h0 (fun x hx => (hT.range x hx).2.1)
  rw [hT.ext]
  have hs := hT.sorted
  have hr := hT.range
  revert hs hr hhead
  generalize out.map Prod.fst = l
  intro hhead hs hr
  cases l with
  | nil => simp at hhead
  | cons a l =>
    simp at hhead
    subst hhead
    rw [List.pairwise_cons] at hs
    have e1 : (0 :: l).filter (fun x => decide (x % gen = 0 ∧ x > 0))
        = l.filter (fun x => decide (gen ∣ x)) := by
      rw [List.filter_cons]
      simp only [gt_iff_lt, lt_self_iff_false, and_false, decide_false, Bool.false_eq_true, if_false]
      apply List.filter_congr
      intro x hx
      have := hs.1 x hx
      simp only [this, and_true, Int.dvd_iff_emod_eq_zero]
    have e2 : (0 :: l).filter (fun x => decide (gen ∣ x))
        = 0 :: l.filter (fun x => decide (gen ∣ x)) := by
      rw [List.filter_cons]; simp
    rw [e1, e2]
    have e3 : (max 1 maxGen).toNat = (maxGen - (([0] : List Int).length : Int)).toNat + 1 := by
      simp; omega
    rw [e3, List.take_succ_cons]
    rfl

/-- Keyframe `i` is first announced at its starting step. -/
theorem firstStep_eq {total nl gen maxGen : Int} (hnl : 1 ≤ nl) (ht : 0 ≤ total)
    {out : List (Int × List Nat)} {fuel : Nat} {starts' : List Int}
    (hT : TraceOK total nl gen maxGen (-1) [0] out (some .stopIteration) fuel starts') (i : Nat) :
    firstStep out i = starts'[i]? := by
  have hst_mem : ∀ st ∈ starts', st ∈ out.map Prod.fst := by
    intro st hst
    rw [starts_eq hnl ht hT] at hst
    have h := List.mem_of_mem_take hst
    rw [List.mem_filter] at h
    exact h.1
  unfold firstStep
  cases hf : out.find? (fun p => p.2.contains i) with
  | none =>
    rw [List.find?_eq_none] at hf
    cases hs : starts'[i]? with
    | none => rfl
    | some st =>
      exfalso
      have h1 := hst_mem st (List.mem_of_getElem? hs)
      obtain ⟨p, hp, hpe⟩ := List.mem_map.1 h1
      have h2 := hf p hp
      apply h2
      rw [List.contains_iff_mem, (hT.index p hp).2]
      refine ⟨st, hs, by omega, ?_⟩
      rw [hpe]
      obtain ⟨r, hr⟩ := generateSteps_eq_cons total nl st hnl (hT.range st h1).2.2
      rw [hr]; simp
  | some p =>
    obtain ⟨hp1, hp2⟩ := List.find?_eq_some_iff_append.1 hf
    obtain ⟨as, bs, hab, hnot⟩ := hp2
    rw [List.contains_iff_mem] at hp1
    have hpm : p ∈ out := by rw [hab]; simp
    obtain ⟨st, hs, hle, hx⟩ := ((hT.index p hpm).2 i).1 hp1
    rw [hs, Option.map_some, Option.some.injEq]
    -- the entry of step `st` cannot come before `p`
    have h1 := hst_mem st (List.mem_of_getElem? hs)
    obtain ⟨q, hq, hqe⟩ := List.mem_map.1 h1
    have hqi : i ∈ q.2 := by
      rw [(hT.index q hq).2]
      refine ⟨st, hs, by omega, ?_⟩
      rw [hqe]
      obtain ⟨r, hr⟩ := generateSteps_eq_cons total nl st hnl (hT.range st h1).2.2
      rw [hr]; simp
    rw [hab, List.mem_append, List.mem_cons] at hq
    rcases hq with hq | rfl | hq
    · have := hnot q hq
      simp [hqi] at this
    · exact hqe
    · have hsort := hT.sorted
      rw [hab, List.map_append, List.map_cons, List.pairwise_append, List.pairwise_cons] at hsort
      have := hsort.2.1.1 q.1 (List.mem_map_of_mem hq)
      omega

end Verif.StepSize
