import Verif.StepSize.LengthLemmas
/-!
# Property C101: the number of steps
-/

namespace Verif.StepSize

/-- **C101.**  The number of steps grows with the logarithm of the length of the run: with
`total - start ≤ num_linear * 10^k` there are at most `num_linear * (k + 1) + 2` of them. -/
theorem C101_steps_logarithmic (total nl start : Int) (k : Nat) (hnl : 1 ≤ nl)
    (hk : total - start ≤ nl * 10 ^ k) :
    (generateSteps total nl start).length ≤ nl.toNat * (k + 1) + 2 := by
  refine (length_le_card (s := insert total (gridPoints nl start k))
    (C01_generate_steps_increasing total nl start hnl).1 ?_).trans ?_
  · intro x hx
    rw [Finset.mem_insert]
    exact ((C02_generate_steps_grid total nl start x hnl).1 hx).imp id (mem_gridPoints hnl hk)
  · exact (Finset.card_insert_le _ _).trans (Nat.add_le_add_right (gridPoints_card nl start k) 1)

/-- The bound is reached. -/
example : (generateSteps 11 10 0).length = 12 ∧ (generateSteps 101 10 0).length = 21 := by decide

example : (generateSteps 100000 100 0).length ≤ 402 :=
  C101_steps_logarithmic 100000 100 0 3 (by decide) (by decide)

/-- **C101, with keyframes.**  The series of `max_gen` keyframes produces at most as many steps as that number of
separate ones, without the common end. -/
theorem C101_series_length (total nl gen maxGen : Int) (k : Nat) (ht : 0 ≤ total) (hnl : 1 ≤ nl)
    (hgen : 1 ≤ gen) (hk : total ≤ nl * 10 ^ k) :
    (seriesList total nl gen maxGen).length ≤ (max 1 maxGen).toNat * (nl.toNat * (k + 1) + 1) + 1 := by
  have h5 := C05_series_runs_from_zero_to_total total nl gen maxGen ht hnl hgen
  rw [← List.length_map (f := Prod.fst)]
  refine (length_le_card (s := insert total ((Finset.range (max 1 maxGen).toNat).biUnion
    (fun i => gridPoints nl ((firstStep (seriesList total nl gen maxGen) i).getD 0) k))) h5.2.2.1 ?_).trans ?_
  · intro x hx
    obtain ⟨i, st, h1, h2⟩ := (C06_series_is_union total nl gen maxGen ht hnl hgen x).1 hx
    have h8 := C08_keyframes_at_multiples total nl gen maxGen ht hnl hgen i
    rw [h1] at h8
    have hi := (List.getElem?_eq_some_iff.1 h8.symm).1
    rw [List.length_take] at hi
    have hst : st ∈ (seriesList total nl gen maxGen).map Prod.fst :=
      List.mem_of_mem_filter (List.mem_of_mem_take (List.mem_of_getElem? h8.symm))
    have h0 : 0 ≤ st := by
      have hp := h5.2.2.1
      have hh := h5.2.2.2.1
      cases hl : (seriesList total nl gen maxGen).map Prod.fst with
      | nil => rw [hl] at hh; cases hh
      | cons a l =>
        rw [hl] at hh hp hst
        obtain rfl : a = 0 := by simpa using hh
        rcases List.mem_cons.1 hst with rfl | h
        · exact le_rfl
        · exact ((List.pairwise_cons.1 hp).1 st h).le
    rw [Finset.mem_insert]
    rcases h2 with rfl | h2
    · exact Or.inl rfl
    · right
      rw [Finset.mem_biUnion]
      exact ⟨i, by rw [Finset.mem_range]; omega, by
        rw [h1]; exact mem_gridPoints hnl (by rw [Option.getD_some]; omega) h2⟩
  · refine (Finset.card_insert_le _ _).trans (Nat.add_le_add_right ?_ 1)
    refine Finset.card_biUnion_le.trans ?_
    refine (Finset.sum_le_sum (fun i _ => gridPoints_card nl _ k)).trans ?_
    simp

/-- The hypotheses of `C101_series_length`: a run of a hundred thousand steps with ten keyframes has at most 4011
steps. -/
example : (seriesList 100000 100 10000 10).length ≤ 4011 :=
  C101_series_length 100000 100 10000 10 3 (by decide) (by decide) (by decide) (by decide)

end Verif.StepSize
