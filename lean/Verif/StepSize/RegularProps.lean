import Verif.StepSize.StableLemmas
/-!
# Exactly when the keyframes are regular, C09
-/

namespace Verif.StepSize

/-- **C09, the exact condition.**  Keyframe `k` starts at `k*gen_steps` for every `k` there is room
for iff there is only one keyframe to start with (`max_gen ≤ 1`), or the run is no longer than
`gen_steps`, or `gen_steps` is on the decade grid of `num_linear`. -/
theorem C09_exactly (total nl gen maxGen : Int) (ht : 0 ≤ total) (hnl : 1 ≤ nl) (hgen : 1 ≤ gen) :
    KeyframesRegular total nl gen maxGen ↔ maxGen ≤ 1 ∨ total ≤ gen ∨ OnGrid nl gen := by
  constructor
  · intro h
    by_contra hcon
    simp only [not_or, not_le] at hcon
    obtain ⟨h1, h2, h3⟩ := hcon
    have hf := h 1 (by simp; omega) (by simp; omega)
    simp only [Nat.cast_one, one_mul] at hf
    obtain ⟨_, _, _, hmem⟩ := first_range ht hnl hgen hf
    obtain ⟨i, st, hst, hlt, hw⟩ := series_before ht hnl hgen hmem
    obtain ⟨r1, _, r3, _⟩ := first_range ht hnl hgen hst
    have h0 : st = 0 := by
      rcases hlt with hlt | hlt
      · by_contra hne
        have := Int.le_of_dvd (by omega) r3
        omega
      · exact hlt
    subst h0
    rcases hw with hw | ⟨_, _, hw⟩
    · omega
    · rw [sub_zero] at hw
      exact h3 hw
  · rintro (h | h | h)
    · intro k hk _
      have : k = 0 := by omega
      subst this
      simpa using first_zero ht hnl hgen
    · intro k hk hkt
      match k, hk, hkt with
      | 0, _, _ => simpa using first_zero ht hnl hgen
      | 1, hk, hkt =>
        simp only [Nat.cast_one, one_mul] at hkt ⊢
        have he : total = gen := by omega
        rw [first_eq ht hnl hgen hk]
        obtain ⟨starts', hT, _⟩ := series_trace total nl gen maxGen hnl (by omega) ht
        have := getElem?_multiples gen hgen 1 0 (multiples total nl gen maxGen)
          (multiples_sorted ht hnl hgen) (by
            intro x hx
            unfold multiples at hx
            rw [List.mem_filter] at hx
            exact ⟨(hT.range x hx.1).2.1, by simpa using hx.2⟩) (by
            intro j hj
            unfold multiples
            rw [List.mem_filter, zero_add]
            refine ⟨?_, by simp⟩
            match j, hj with
            | 0, _ => simpa using zero_mem_steps hnl ht hT
            | 1, _ =>
              rw [C06_series_is_union total nl gen maxGen ht hnl hgen]
              exact ⟨0, 0, first_zero ht hnl hgen, Or.inl (by simp [he])⟩)
        simpa using this
      | k + 2, _, hkt =>
        exfalso
        push_cast at hkt
        nlinarith [Int.natCast_nonneg k]
    · exact C09_keyframes_regular_partial total nl gen maxGen ht hnl hgen h

/-- With the command line defaults (`num_linear = 100`, `gen_steps = 20000`) the keyframes are
regular for runs of any length. -/
example (total maxGen : Int) (ht : 0 ≤ total) : KeyframesRegular total 100 20000 maxGen :=
  (C09_exactly total 100 20000 maxGen ht (by decide) (by decide)).2
    (Or.inr (Or.inr ⟨3, 20, by decide, by decide, Or.inr (by decide)⟩))

/-- With `num_linear = 3` and `gen_steps = 5` they are not, in a run of 20 steps. -/
example : ¬ KeyframesRegular 20 3 5 4 := by
  intro h
  rcases (C09_exactly 20 3 5 4 (by decide) (by decide) (by decide)).1 h with h | h | ⟨k, i, h1, h2, h3⟩
  · omega
  · omega
  · match k with
    | 0 => simp at h2; omega
    | k + 1 =>
      rw [pow_succ] at h2
      have : (10 : Int) ∣ 5 := ⟨i * 10 ^ k, by rw [h2]; ring⟩
      omega

end Verif.StepSize
