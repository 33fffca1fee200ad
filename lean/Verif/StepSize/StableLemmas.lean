import Verif.StepSize.Props
/-!
# Lemmas: what the start of a keyframe depends on
-/

namespace Verif.StepSize

/-- The generators after a run that has produced the steps `xs`. -/
def extended (gen maxGen : Int) (starts xs : List Int) : List Int :=
  starts ++ (xs.filter (fun x => decide (x % gen = 0 ∧ x > 0))).take (maxGen - starts.length).toNat

theorem extended_cons (gen maxGen : Int) (starts : List Int) (m : Int) (xs : List Int) :
    extended gen maxGen starts (m :: xs) = extended gen maxGen (newStarts gen maxGen starts m) xs := by
  unfold extended newStarts
  rw [List.filter_cons]
  by_cases hc1 : m % gen = 0 ∧ m > 0
  · by_cases hc2 : (starts.length : Int) < maxGen
    · rw [if_pos (by simpa using hc1), if_pos ⟨hc1.1, hc1.2, hc2⟩]
      have : (maxGen - (starts.length : Int)).toNat
          = (maxGen - ((starts ++ [m]).length : Int)).toNat + 1 := by
        simp; omega
      rw [this, List.take_succ_cons]
      simp
    · rw [if_pos (by simpa using hc1), if_neg (fun h => hc2 h.2.2)]
      have : (maxGen - (starts.length : Int)).toNat = 0 := by omega
      rw [this]
      simp
  · rw [if_neg (by simpa using hc1), if_neg (fun h => hc1 ⟨h.1, h.2.1⟩)]

/-- Every step is asked for by a keyframe that had started before, or by keyframe 0. -/
theorem run_before (total nl gen maxGen : Int) (hnl : 1 ≤ nl) (hgen : gen ≠ 0) (ht : 0 ≤ total) :
    ∀ (fuel : Nat) (c : Int) (s : Series) (starts : List Int), Inv total nl gen maxGen c s starts →
      ∀ x ∈ (s.run fuel).1.map Prod.fst,
        ∃ st ∈ extended gen maxGen starts ((s.run fuel).1.map Prod.fst),
          (st < x ∨ st = 0) ∧ x ∈ generateSteps total nl st := by
  intro fuel
  induction fuel with
  | zero =>
    intro c s starts _ x hx
    simp [Series.run] at hx
  | succ fuel ih =>
    intro c s starts hI
    unfold Series.run
    cases hm : minimum s.queue with
    | none =>
      obtain ⟨h1, _⟩ := next_stop total nl gen maxGen c s starts hI ((minimum_none _).1 hm)
      rw [h1]
      intro x hx
      simp at hx
    | some m =>
      obtain ⟨s', h1, hcm, hm0, hI', -, -, -, st, hst, hmst⟩ :=
        next_step total nl gen maxGen hnl hgen ht c s starts hI m hm
      rw [h1]
      intro x hx
      simp only [List.map_cons] at hx ⊢
      rcases List.mem_cons.1 hx with rfl | hx
      · refine ⟨st, ?_, ?_, hmst⟩
        · unfold extended
          exact List.mem_append_left _ hst
        · rcases (hI.bound st hst).2.2 with h | h
          · exact Or.inl (by omega)
          · right
            rcases hI.curr with ⟨_, _, hc⟩ | ⟨_, _, hs⟩
            · omega
            · rw [hs] at hst
              simpa using hst
      · rw [extended_cons]
        exact ih m s' _ hI' x hx

/-- The steps of a run that are multiples of the interval. -/
def multiples (total nl gen maxGen : Int) : List Int :=
  ((seriesList total nl gen maxGen).map Prod.fst).filter (fun x => decide (gen ∣ x))

section
variable {total nl gen maxGen : Int}

theorem multiples_sorted (ht : 0 ≤ total) (hnl : 1 ≤ nl) (hgen : 1 ≤ gen) :
    (multiples total nl gen maxGen).Pairwise (· < ·) := by
  obtain ⟨starts', hT, _⟩ := series_trace total nl gen maxGen hnl (by omega) ht
  exact hT.sorted.filter _

theorem first_eq (ht : 0 ≤ total) (hnl : 1 ≤ nl) (hgen : 1 ≤ gen) {k : ℕ} (hk : (k : Int) < max 1 maxGen) :
    firstStep (seriesList total nl gen maxGen) k = (multiples total nl gen maxGen)[k]? := by
  rw [C08_keyframes_at_multiples total nl gen maxGen ht hnl hgen k, List.getElem?_take, if_pos (by omega)]
  rfl

/-- Keyframe numbers are below the limit. -/
theorem first_lt (ht : 0 ≤ total) (hnl : 1 ≤ nl) (hgen : 1 ≤ gen) {k : ℕ} {st : Int}
    (h : firstStep (seriesList total nl gen maxGen) k = some st) : (k : Int) < max 1 maxGen := by
  rw [C08_keyframes_at_multiples total nl gen maxGen ht hnl hgen k] at h
  have := (List.getElem?_eq_some_iff.1 h).1
  rw [List.length_take] at this
  omega

theorem first_zero (ht : 0 ≤ total) (hnl : 1 ≤ nl) (hgen : 1 ≤ gen) :
    firstStep (seriesList total nl gen maxGen) 0 = some 0 := by
  obtain ⟨starts', hT, _⟩ := series_trace total nl gen maxGen hnl (by omega) ht
  have h0 := zero_mem_steps hnl ht hT
  rw [first_eq ht hnl hgen (by simp), ← List.head?_eq_getElem?]
  refine head_of_sorted_min _ 0 (multiples_sorted ht hnl hgen) ?_ ?_
  · unfold multiples
    rw [List.mem_filter]
    exact ⟨h0, by simp⟩
  · intro x hx
    unfold multiples at hx
    rw [List.mem_filter] at hx
    exact (hT.range x hx.1).2.1

/-- Every step of a run is asked for by a keyframe that started before it, or by keyframe 0. -/
theorem series_before (ht : 0 ≤ total) (hnl : 1 ≤ nl) (hgen : 1 ≤ gen) {x : Int}
    (hx : x ∈ (seriesList total nl gen maxGen).map Prod.fst) :
    ∃ i st, firstStep (seriesList total nl gen maxGen) i = some st ∧ (st < x ∨ st = 0) ∧ Wants total nl st x := by
  have h := run_before total nl gen maxGen hnl (by omega) ht (total.toNat + 2) (-1) _ [0]
    (init_inv total nl gen maxGen hnl ht) x hx
  obtain ⟨st, hst, hlt, hw⟩ := h
  obtain ⟨starts', hT, _⟩ := series_trace total nl gen maxGen hnl (by omega) ht
  have e : starts' = extended gen maxGen [0] ((seriesList total nl gen maxGen).map Prod.fst) := hT.ext
  change st ∈ extended gen maxGen [0] ((seriesList total nl gen maxGen).map Prod.fst) at hst
  rw [← e] at hst
  obtain ⟨i, hi⟩ := List.mem_iff_getElem?.1 hst
  refine ⟨i, st, ?_, hlt, (mem_generateSteps _ _ _ _ hnl).1 hw⟩
  rw [firstStep_eq hnl ht hT, hi]

theorem first_mono (ht : 0 ≤ total) (hnl : 1 ≤ nl) (hgen : 1 ≤ gen) {i j : ℕ} {a b : Int}
    (hi : firstStep (seriesList total nl gen maxGen) i = some a)
    (hj : firstStep (seriesList total nl gen maxGen) j = some b) : a < b ↔ i < j := by
  have h1 := hi
  have h2 := hj
  rw [first_eq ht hnl hgen (first_lt ht hnl hgen hi)] at h1
  rw [first_eq ht hnl hgen (first_lt ht hnl hgen hj)] at h2
  have hs := multiples_sorted (maxGen := maxGen) ht hnl hgen
  obtain ⟨l1, e1⟩ := List.getElem?_eq_some_iff.1 h1
  obtain ⟨l2, e2⟩ := List.getElem?_eq_some_iff.1 h2
  have hp := List.pairwise_iff_getElem.1 hs
  constructor
  · intro hab
    by_contra hcon
    rcases Nat.lt_or_eq_of_le (Nat.le_of_not_lt hcon) with h | h
    · have := hp j i l2 l1 h
      omega
    · subst h
      omega
  · intro hij
    have := hp i j l1 l2 hij
    omega

theorem first_range (ht : 0 ≤ total) (hnl : 1 ≤ nl) (hgen : 1 ≤ gen) {i : ℕ} {a : Int}
    (hi : firstStep (seriesList total nl gen maxGen) i = some a) :
    0 ≤ a ∧ a ≤ total ∧ gen ∣ a ∧ a ∈ (seriesList total nl gen maxGen).map Prod.fst := by
  have h1 := hi
  rw [first_eq ht hnl hgen (first_lt ht hnl hgen hi)] at h1
  have hmem := List.mem_of_getElem? h1
  unfold multiples at hmem
  rw [List.mem_filter] at hmem
  obtain ⟨starts', hT, _⟩ := series_trace total nl gen maxGen hnl (by omega) ht
  have := hT.range a hmem.1
  exact ⟨this.2.1, this.2.2, of_decide_eq_true hmem.2, hmem.1⟩

end

/-- In a sorted list, something beyond the first `k` elements bounds the next one. -/
theorem getElem_le_of_mem {l : List Int} (hs : l.Pairwise (· < ·)) {k : ℕ} {x : Int} (hx : x ∈ l)
    (hk : ∀ j < k, ∃ y, l[j]? = some y ∧ y < x) : ∃ y, l[k]? = some y ∧ y ≤ x := by
  obtain ⟨i, hi, rfl⟩ := List.getElem_of_mem hx
  have hp := List.pairwise_iff_getElem.1 hs
  have hki : k ≤ i := by
    by_contra hcon
    obtain ⟨y, h1, h2⟩ := hk i (by omega)
    rw [List.getElem?_eq_getElem hi] at h1
    obtain rfl := Option.some.inj h1
    omega
  refine ⟨l[k], List.getElem?_eq_getElem (by omega), ?_⟩
  rcases Nat.lt_or_eq_of_le hki with h | h
  · exact le_of_lt (hp k i (by omega) hi h)
  · subst h
    exact le_rfl

/-- If the keyframes before `k` start at the same steps in two runs, and keyframe `k` starts before the ends of both in
the one, it does not start later in the other. -/
theorem first_le {m m' nl gen M M' : Int} (hm : 0 ≤ m) (hm' : 0 ≤ m') (hnl : 1 ≤ nl) (hgen : 1 ≤ gen) {k : ℕ}
    (hk' : (k : Int) < max 1 M') {st : Int} (hst : firstStep (seriesList m nl gen M) k = some st)
    (hlt : m = m' ∨ (st < m ∧ st < m'))
    (ih : ∀ j < k, ∀ a, firstStep (seriesList m nl gen M) j = some a →
      firstStep (seriesList m' nl gen M') j = some a) :
    ∃ st', firstStep (seriesList m' nl gen M') k = some st' ∧ st' ≤ st := by
  obtain ⟨r1, r2, r3, r4⟩ := first_range hm hnl hgen hst
  have hmul := multiples_sorted (maxGen := M) hm hnl hgen
  have hkM := first_lt hm hnl hgen hst
  have hstm := hst
  rw [first_eq hm hnl hgen hkM] at hstm
  have hklen := (List.getElem?_eq_some_iff.1 hstm).1
  -- the step is there in the other run
  have hin : st ∈ multiples m' nl gen M' := by
    unfold multiples
    rw [List.mem_filter]
    refine ⟨?_, decide_eq_true r3⟩
    obtain ⟨i, a, h1, h2, h3⟩ := series_before hm hnl hgen r4
    have hfirst : ∃ i', firstStep (seriesList m' nl gen M') i' = some a := by
      rcases h2 with h2 | h2
      · exact ⟨i, ih i ((first_mono hm hnl hgen h1 hst).1 h2) a h1⟩
      · subst h2
        exact ⟨0, first_zero hm' hnl hgen⟩
    obtain ⟨i', hi'⟩ := hfirst
    refine (C06_series_is_union m' nl gen M' hm' hnl hgen st).2 ⟨i', a, hi', ?_⟩
    rcases hlt with rfl | ⟨hl1, hl2⟩
    · exact h3
    · rcases h3 with h3 | ⟨h3, _, h5⟩
      · omega
      · exact Or.inr ⟨h3, hl2, h5⟩
  rw [first_eq hm' hnl hgen hk']
  refine getElem_le_of_mem (multiples_sorted hm' hnl hgen) hin ?_
  intro j hj
  have hjM : (j : Int) < max 1 M := by omega
  have hjM' : (j : Int) < max 1 M' := by omega
  have hja : firstStep (seriesList m nl gen M) j = some (multiples m nl gen M)[j] := by
    rw [first_eq hm hnl hgen hjM]
    exact List.getElem?_eq_getElem (by omega)
  refine ⟨_, ?_, (first_mono hm hnl hgen hja hst).2 hj⟩
  rw [← first_eq hm' hnl hgen hjM']
  exact ih j hj _ hja

/-- Keyframes start at the same steps in two runs, as long as they start before the ends of both and both have so many
keyframes. -/
theorem first_agree {m m' nl gen M M' : Int} (hm : 0 ≤ m) (hm' : 0 ≤ m') (hnl : 1 ≤ nl) (hgen : 1 ≤ gen) :
    ∀ k : ℕ, (k : Int) < max 1 M → (k : Int) < max 1 M' → ∀ st, m = m' ∨ (st < m ∧ st < m') →
      (firstStep (seriesList m nl gen M) k = some st ↔ firstStep (seriesList m' nl gen M') k = some st) := by
  intro k
  induction k using Nat.strong_induction_on with
  | _ k ih =>
    intro hk hk' st hlt
    have hdown : ∀ {a : Int}, a ≤ st → m = m' ∨ (a < m ∧ a < m') := by
      intro a ha
      rcases hlt with h | h
      · exact Or.inl h
      · exact Or.inr ⟨by omega, by omega⟩
    constructor
    · intro hst
      obtain ⟨st', h1, h2⟩ := first_le hm hm' hnl hgen hk' hst hlt (fun j hj a ha =>
        (ih j hj (by omega) (by omega) a (hdown (le_of_lt ((first_mono hm hnl hgen ha hst).2 hj)))).1 ha)
      obtain ⟨st'', h3, h4⟩ := first_le hm' hm hnl hgen hk h1 (by
          rcases hdown h2 with h | h
          · exact Or.inl h.symm
          · exact Or.inr ⟨h.2, h.1⟩) (fun j hj a ha =>
        (ih j hj (by omega) (by omega) a
          (hdown (le_trans (le_of_lt ((first_mono hm' hnl hgen ha h1).2 hj)) h2))).2 ha)
      rw [hst] at h3
      obtain rfl := Option.some.inj h3
      rw [h1, show st' = st by omega]
    · intro hst
      obtain ⟨st', h1, h2⟩ := first_le hm' hm hnl hgen hk hst (by
          rcases hlt with h | h
          · exact Or.inl h.symm
          · exact Or.inr ⟨h.2, h.1⟩) (fun j hj a ha =>
        (ih j hj (by omega) (by omega) a (hdown (le_of_lt ((first_mono hm' hnl hgen ha hst).2 hj)))).2 ha)
      obtain ⟨st'', h3, h4⟩ := first_le hm hm' hnl hgen hk' h1 (hdown h2) (fun j hj a ha =>
        (ih j hj (by omega) (by omega) a
          (hdown (le_trans (le_of_lt ((first_mono hm hnl hgen ha h1).2 hj)) h2))).1 ha)
      rw [hst] at h3
      obtain rfl := Option.some.inj h3
      rw [h1, show st' = st by omega]

end Verif.StepSize
