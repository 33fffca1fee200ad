import Verif.RelaxTime.StableExact
/-!
# C140: exactly which decays keep reporting the first time when their values have small errors
-/

namespace Verif.RelaxTime

/-- What is found when the first value is below the threshold, or none is. -/
theorem found_start {signals : Bool} {time ys : List ℝ} {thr t t' : ℝ} (ht : time[0]? = some t)
    (ht' : time.getLast? = some t') {y : ℝ} (h0 : ys[0]? = some y)
    (h : y < thr ∨ ∀ (i : ℕ) (x : ℝ), 0 < i → ys[i]? = some x → thr ≤ x) :
    thresholdRelaxation signals time (ys.map some) thr true = .ok ⟨some t, some (t - t')⟩ := by
  by_cases hy : y < thr
  · exact C47_at_once (some_not_none signals ys)
      ⟨⟨some y, by simp [h0], by simpa [Beyond] using hy⟩, fun j hj => absurd hj (by omega)⟩ ht ht'
  · have hall := h.resolve_left hy
    refine C47_never (some_not_none signals ys) ?_ ?_ ht ht'
    · intro hv
      rw [List.map_eq_nil_iff] at hv
      rw [hv] at h0
      cases h0
    · intro v hv hb
      obtain ⟨x, hx, rfl⟩ := List.mem_map.1 hv
      obtain ⟨i, hi, rfl⟩ := List.mem_iff_getElem.1 hx
      have hb' : ys[i] < thr := by simpa [Beyond] using hb
      rcases Nat.eq_zero_or_pos i with rfl | hpos
      · rw [List.getElem?_eq_getElem hi] at h0
        rw [Option.some.inj h0] at hb'
        exact hy hb'
      · exact absurd hb' (not_lt.2 (hall i _ hpos (List.getElem?_eq_getElem hi)))

/-- What is found when the first value is not below the threshold, but a later one is: not the first time. -/
theorem found_later {signals : Bool} {time ys : List ℝ} {thr t : ℝ} (hlen : time.length = ys.length)
    (hinc : time.Pairwise (· < ·)) (ht : time[0]? = some t) {y : ℝ} (h0 : ys[0]? = some y) (hy : thr ≤ y) {j : ℕ} {x : ℝ}
    (hj : ys[j]? = some x) (hx : x < thr) (e : Option ℝ) :
    thresholdRelaxation signals time (ys.map some) thr true ≠ .ok ⟨some t, e⟩ := by
  classical
  have hany : ∃ (i : ℕ) (v : Option ℝ), (ys.map some)[i]? = some v ∧ Beyond thr true v :=
    ⟨j, some x, by simp [hj], by simpa [Beyond] using hx⟩
  have hf : FirstBeyond thr true (ys.map some) (Nat.find hany) :=
    ⟨Nat.find_spec hany, fun j hj v hv hb => Nat.find_min hany hj ⟨v, hv, hb⟩⟩
  generalize Nat.find hany = k at hf
  obtain ⟨v, hv, hb⟩ := hf.1
  have hk : k < time.length := by
    have := (List.getElem?_eq_some_iff.1 hv).1
    rw [hlen]
    simpa using this
  cases k with
  | zero =>
    rw [List.getElem?_map, h0] at hv
    obtain rfl := Option.some.inj hv
    have : y < thr := by simpa [Beyond] using hb
    linarith
  | succ k =>
    rw [C47_threshold_partial (some_not_none signals ys) hf (List.getElem?_eq_getElem hk)
      (List.getElem?_eq_getElem (by omega))]
    intro he
    injection he with he
    injection he with he _
    injection he with he
    obtain ⟨hp, rfl⟩ := List.getElem?_eq_some_iff.1 ht
    exact absurd he.symm (List.pairwise_iff_getElem.1 hinc _ _ hp hk (by omega)).ne

/-- **C140, exactly** for a decay for which the first time is reported, as its first value is below the threshold or
none is.  Errors of up to `ε` in the values never change what is reported if and only if the first value is below the
threshold by more than `ε`, or all later values are above it by at least `ε`. -/
theorem C140_start_exactly (signals : Bool) {ε thr : ℝ} (hε : 0 ≤ ε) {time ys : List ℝ} (hlen : time.length = ys.length)
    (hinc : time.Pairwise (· < ·)) {y : ℝ} (h0 : ys[0]? = some y)
    (h : y < thr ∨ ∀ (i : ℕ) (x : ℝ), 0 < i → ys[i]? = some x → thr ≤ x) :
    (∀ ys' : List ℝ, Close ε (ys.map some) (ys'.map some) →
      thresholdRelaxation signals time (ys'.map some) thr true = thresholdRelaxation signals time (ys.map some) thr true) ↔
    y + ε < thr ∨ ∀ (i : ℕ) (x : ℝ), 0 < i → ys[i]? = some x → thr + ε ≤ x := by
  have hpos : 0 < time.length := by
    rw [hlen]
    exact (List.getElem?_eq_some_iff.1 h0).1
  have ht : time[0]? = some time[0] := List.getElem?_eq_getElem hpos
  have ht' : time.getLast? = some (time.getLast (List.length_pos_iff.1 hpos)) :=
    List.getLast?_eq_some_getLast (List.length_pos_iff.1 hpos)
  rw [found_start ht ht' h0 h]
  constructor
  · intro H
    by_contra hno
    rw [not_or] at hno
    obtain ⟨h1, h2⟩ := hno
    push Not at h2
    obtain ⟨j, x, hj, hx, hlt⟩ := h2
    have hjl := (List.getElem?_eq_some_iff.1 hx).1
    have hc : Close ε (ys.map some) (((ys.set 0 (y + ε)).set j (x - ε)).map some) := by
      unfold Close
      rw [List.forall₂_iff_get]
      refine ⟨by simp, fun k k1 k2 => ?_⟩
      simp only [List.get_eq_getElem, List.getElem_map, List.getElem_set, Near]
      split
      · rename_i hk
        subst hk
        rw [(List.getElem?_eq_some_iff.1 hx).2]
        simp [abs_of_nonneg hε]
      · split
        · rename_i hk
          subst hk
          rw [(List.getElem?_eq_some_iff.1 h0).2]
          simp [abs_of_nonneg hε]
        · simpa using hε
    refine found_later (signals := signals) (thr := thr) (y := y + ε) (j := j) (x := x - ε) (by simpa using hlen) hinc ht
      ?_ (not_lt.1 h1) ?_ (by linarith) _ (H _ hc)
    · rw [List.getElem?_set_ne (by omega), List.getElem?_set_self (by omega)]
    · exact List.getElem?_set_self (by simpa using hjl)
  · intro hor ys' hc
    have hc' : ∀ (i : ℕ) (z : ℝ), ys'[i]? = some z → ∃ x, ys[i]? = some x ∧ |x - z| ≤ ε := by
      intro i z hz
      unfold Close at hc
      rw [List.forall₂_iff_get] at hc
      obtain ⟨hi, rfl⟩ := List.getElem?_eq_some_iff.1 hz
      have hl : ys.length = ys'.length := by simpa using hc.1
      refine ⟨ys[i], List.getElem?_eq_getElem (by omega), ?_⟩
      have := hc.2 i (by simp; omega) (by simpa using hi)
      simpa [Near] using this
    have hl : ys.length = ys'.length := by simpa using hc.length_eq
    have hp' : 0 < ys'.length := by omega
    obtain ⟨x, hx, hxz⟩ := hc' 0 _ (List.getElem?_eq_getElem hp')
    rw [h0] at hx
    obtain rfl := Option.some.inj hx
    refine found_start ht ht' (List.getElem?_eq_getElem hp') ?_
    rcases hor with h1 | h1
    · left
      have := (abs_le.1 hxz).1
      linarith
    · right
      intro i z hi hz
      obtain ⟨x, hx, hxz⟩ := hc' i z hz
      have := h1 i x hi hx
      have := (abs_le.1 hxz).2
      linarith

/-- A decay that stays above one half by a quarter after its first value, which may be anything. -/
example : ∀ ys' : List ℝ, Close (1 / 4) (([1 / 2, 3 / 4, 1] : List ℝ).map some) (ys'.map some) →
    thresholdRelaxation true [0, 1, 2] (ys'.map some) (1 / 2) true =
      thresholdRelaxation true [0, 1, 2] (([1 / 2, 3 / 4, 1] : List ℝ).map some) (1 / 2) true := by
  have later : ∀ (i : ℕ) (x : ℝ), 0 < i → ([1 / 2, 3 / 4, 1] : List ℝ)[i]? = some x → 3 / 4 ≤ x := by
    intro i x hi hx
    have hl : i < 3 := (List.getElem?_eq_some_iff.1 hx).1
    have : i = 1 ∨ i = 2 := by omega
    rcases this with rfl | rfl
    · obtain rfl := Option.some.inj hx
      exact le_rfl
    · obtain rfl := Option.some.inj hx
      norm_num
  refine (C140_start_exactly true (ε := 1 / 4) (thr := 1 / 2) (time := [0, 1, 2]) (ys := [1 / 2, 3 / 4, 1]) (by norm_num) rfl
    (by simp) rfl (Or.inr fun i x hi hx => ?_)).2 (Or.inr fun i x hi hx => ?_)
  · have := later i x hi hx
    linarith
  · have := later i x hi hx
    linarith

end Verif.RelaxTime
