import Verif.RelaxTime.Props
import Verif.RelaxTime.StableLemmas
/-!
# C140: exactly which series keep the time of their maximum when their values have small errors
-/

namespace Verif.RelaxTime

/-- Two values of a series moved by no more than `ε`. -/
theorem close_set_two {ε : ℝ} (hε : 0 ≤ ε) {value : List (Option ℝ)} {i j : ℕ} {x y x' y' : ℝ}
    (hi : value[i]? = some (some x)) (hj : value[j]? = some (some y)) (hx : |x - x'| ≤ ε) (hy : |y - y'| ≤ ε) :
    Close ε value ((value.set j (some y')).set i (some x')) := by
  unfold Close
  rw [List.forall₂_iff_get]
  refine ⟨by simp, fun k h1 h2 => ?_⟩
  simp only [List.get_eq_getElem, List.getElem_set]
  split
  · rename_i hk
    subst hk
    rw [(List.getElem?_eq_some_iff.1 hi).2]
    exact hx
  · split
    · rename_i hk
      subst hk
      rw [(List.getElem?_eq_some_iff.1 hj).2]
      exact hy
    · cases value[k] with
      | none => trivial
      | some z => simpa [Near] using hε

/-- With increasing times, series with the same time of the maximum have it at the same place. -/
theorem peak_same {time : List ℝ} (hinc : time.Pairwise (· < ·)) {value value' : List (Option ℝ)}
    (hlen : time.length = value.length) (hlen' : time.length = value'.length) {i : ℕ} {x : ℝ} (h : FirstMax value i x)
    (hs : ∃ y, some y ∈ value') (he : maxTimeRelaxation time value' = maxTimeRelaxation time value) :
    ∃ x', FirstMax value' i x' := by
  obtain ⟨k, x', hk⟩ := exists_firstMax hs
  obtain ⟨t, e, h1, h2, -⟩ := C48_max_time hlen h
  obtain ⟨t', e', h1', h2', -⟩ := C48_max_time hlen' hk
  rw [h1, h1'] at he
  injection he with he
  injection he with he _
  injection he with he
  subst he
  obtain ⟨hi, hit⟩ := List.getElem?_eq_some_iff.1 h2
  obtain ⟨hk', hkt⟩ := List.getElem?_eq_some_iff.1 h2'
  have : k = i := by
    rcases lt_trichotomy k i with hlt | heq | hgt
    · have := List.pairwise_iff_getElem.1 hinc _ _ hk' hi hlt
      rw [hit, hkt] at this
      exact absurd this (lt_irrefl _)
    · exact heq
    · have := List.pairwise_iff_getElem.1 hinc _ _ hi hk' hgt
      rw [hit, hkt] at this
      exact absurd this (lt_irrefl _)
  subst this
  exact ⟨x', hk⟩

/-- **C140, exactly** for the times of a maximum.  Errors of up to `ε` in the values never change the time and the error
reported if and only if the largest value exceeds those before it by more than `2 ε`, and those after it by at least
`2 ε`: of equal values the first one counts. -/
theorem C140_max_exactly {ε : ℝ} (hε : 0 ≤ ε) {time : List ℝ} {value : List (Option ℝ)}
    (hlen : time.length = value.length) (hinc : time.Pairwise (· < ·)) {i : ℕ} {x : ℝ} (h : FirstMax value i x) :
    (∀ value', Close ε value value' → maxTimeRelaxation time value' = maxTimeRelaxation time value) ↔
    (∀ (j : ℕ) (y : ℝ), j < i → value[j]? = some (some y) → y + 2 * ε < x) ∧
      ∀ (j : ℕ) (y : ℝ), i < j → value[j]? = some (some y) → y + 2 * ε ≤ x := by
  constructor
  · intro H
    have key : ∀ (j : ℕ) (y : ℝ), j ≠ i → value[j]? = some (some y) →
        (j < i → y + ε < x - ε) ∧ y + ε ≤ x - ε := by
      intro j y hne hj
      have hc : Close ε value ((value.set j (some (y + ε))).set i (some (x - ε))) :=
        close_set_two hε h.1 hj (by simp [abs_of_nonneg hε]) (by simp [abs_of_nonneg hε])
      have hil := (List.getElem?_eq_some_iff.1 h.1).1
      have hjl := (List.getElem?_eq_some_iff.1 hj).1
      have hi' : ((value.set j (some (y + ε))).set i (some (x - ε)))[i]? = some (some (x - ε)) :=
        List.getElem?_set_self (by simpa using hil)
      have hj' : ((value.set j (some (y + ε))).set i (some (x - ε)))[j]? = some (some (y + ε)) := by
        rw [List.getElem?_set_ne (Ne.symm hne), List.getElem?_set_self hjl]
      obtain ⟨x', hx'⟩ := peak_same hinc hlen (by simpa using hlen) h ⟨_, List.mem_of_getElem? hi'⟩ (H _ hc)
      have hxe : x - ε = x' := Option.some.inj (Option.some.inj (hi'.symm.trans hx'.1))
      subst hxe
      exact ⟨fun hlt => hx'.2.2 j hlt _ hj', hx'.2.1 _ (List.mem_of_getElem? hj')⟩
    refine ⟨fun j y hj hy => ?_, fun j y hj hy => ?_⟩
    · have := (key j y (by omega) hy).1 hj
      linarith
    · have := (key j y (by omega) hy).2
      linarith
  · rintro ⟨h1, h2⟩ value' hc
    obtain ⟨x', hx', hn⟩ := close_some hc h.1
    have hn' := abs_le.1 hn
    have hf : FirstMax value' i x' := by
      refine ⟨hx', fun y' hy' => ?_, fun j hj y' hy' => ?_⟩
      · obtain ⟨j, hj, hjy⟩ := List.mem_iff_getElem.1 hy'
        have hy'' : value'[j]? = some (some y') := by rw [List.getElem?_eq_getElem hj, hjy]
        obtain ⟨y, hy, hyn⟩ := close_some (close_symm hc) hy''
        have hyn' := abs_le.1 hyn
        rcases lt_trichotomy j i with hlt | heq | hgt
        · have := h1 j y hlt hy
          linarith [hn'.1, hn'.2, hyn'.1, hyn'.2]
        · subst heq
          exact (Option.some.inj (Option.some.inj (hy''.symm.trans hx'))).le
        · have := h2 j y hgt hy
          linarith [hn'.1, hn'.2, hyn'.1, hyn'.2]
      · obtain ⟨y, hy, hyn⟩ := close_some (close_symm hc) hy'
        have hyn' := abs_le.1 hyn
        have := h1 j y hj hy
        linarith [hn'.1, hn'.2, hyn'.1, hyn'.2]
    unfold maxTimeRelaxation
    rw [nanargmax_firstMax hf, nanargmax_firstMax h, close_length hc]

/-- Ratios with a maximum of 1: it stays with errors of 1/4, which can make the last value as large. -/
example : ∀ value', Close (1 / 4) [some 0, some 1, none, some (1 / 2)] value' →
    maxTimeRelaxation [0, 1, 2, 3] value' = maxTimeRelaxation [0, 1, 2, 3] [some 0, some 1, none, some (1 / 2)] := by
  have hm : FirstMax [some 0, some 1, none, some (1 / 2)] 1 1 := by
    refine ⟨rfl, fun y hy => ?_, fun j hj y hy => ?_⟩
    · simp only [List.mem_cons, Option.some.injEq, List.not_mem_nil, or_false, reduceCtorEq, false_or] at hy
      rcases hy with rfl | rfl | rfl <;> norm_num
    · obtain rfl : j = 0 := by omega
      obtain rfl := Option.some.inj (Option.some.inj hy)
      norm_num
  refine (C140_max_exactly (by norm_num) rfl (by simp; norm_num) hm).2 ⟨fun j y hj hy => ?_, fun j y hj hy => ?_⟩
  · obtain rfl : j = 0 := by omega
    obtain rfl := Option.some.inj (Option.some.inj hy)
    norm_num
  · have hl : j < 4 := (List.getElem?_eq_some_iff.1 hy).1
    have : j = 2 ∨ j = 3 := by omega
    rcases this with rfl | rfl
    · cases hy
    · obtain rfl := Option.some.inj (Option.some.inj hy)
      norm_num

end Verif.RelaxTime
