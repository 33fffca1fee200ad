import Verif.RelaxTime.StableExact
/-!
# C140: exactly which rising series keep their time when their values have small errors
-/

namespace Verif.RelaxTime

/-- What is found for a series of numbers: the time of the first that is above the threshold, and the first
time when none is. -/
theorem found_rise {signals : Bool} {time : List ℝ} {ys : List ℝ} {thr : ℝ} (hlen : time.length = ys.length)
    (hpos : 0 < time.length) :
    ∃ k, ∃ hk : k < time.length, (∃ e, thresholdRelaxation signals time (ys.map some) thr false = .ok ⟨some time[k], e⟩) ∧
      (k = 0 ∨ ∃ y, ys[k]? = some y ∧ thr < y) ∧ ∀ i y, i < k → ys[i]? = some y → y ≤ thr := by
  have h0 : time[0]? = some time[0] := List.getElem?_eq_getElem hpos
  have hl : time.getLast? = some (time.getLast (List.length_pos_iff.1 hpos)) :=
    List.getLast?_eq_some_getLast (List.length_pos_iff.1 hpos)
  by_cases hany : ∃ (i : ℕ) (v : Option ℝ), (ys.map some)[i]? = some v ∧ Beyond thr false v
  · classical
    have hf : FirstBeyond thr false (ys.map some) (Nat.find hany) :=
      ⟨Nat.find_spec hany, fun j hj v hv hb => Nat.find_min hany hj ⟨v, hv, hb⟩⟩
    generalize Nat.find hany = k at hf
    obtain ⟨v, hv, hb⟩ := hf.1
    have hk : k < time.length := by
      have := (List.getElem?_eq_some_iff.1 hv).1
      rw [hlen]
      simpa using this
    have hlow : ∀ i y, i < k → ys[i]? = some y → y ≤ thr := by
      intro i y hi hy
      have := hf.2 i hi (some y) (by simp [hy])
      simpa [Beyond] using this
    refine ⟨k, hk, ?_, ?_, hlow⟩
    · cases k with
      | zero => exact ⟨_, C47_at_once (some_not_none signals ys) hf h0 hl⟩
      | succ k =>
        exact ⟨_, C47_threshold_partial (some_not_none signals ys) hf (List.getElem?_eq_getElem hk)
          (List.getElem?_eq_getElem (by omega))⟩
    · right
      rw [List.getElem?_map, Option.map_eq_some_iff] at hv
      obtain ⟨y, hy, rfl⟩ := hv
      exact ⟨y, hy, by simpa [Beyond] using hb⟩
  · refine ⟨0, hpos, ⟨_, C47_never (some_not_none signals ys) ?_ ?_ h0 hl⟩, Or.inl rfl, fun i y hi => absurd hi (by omega)⟩
    · intro hv
      rw [List.map_eq_nil_iff] at hv
      rw [hv, List.length_nil] at hlen
      omega
    · intro v hv hb
      obtain ⟨i, hi, rfl⟩ := List.mem_iff_getElem.1 hv
      exact hany ⟨i, _, List.getElem?_eq_getElem hi, hb⟩

/-- **C140, exactly** for `struct_msd`, or any series that first rises above the threshold after its first value.  Errors of
up to `ε` in the values never change the time and the error reported if and only if the value that passes the threshold does
so by more than `ε`, and all values before are below it by at least `ε`. -/
theorem C140_rise_exactly (signals : Bool) {ε thr : ℝ} (hε : 0 ≤ ε) {time ys : List ℝ} (hlen : time.length = ys.length)
    (hinc : time.Pairwise (· < ·)) {j : ℕ} {y : ℝ} (hj : ys[j + 1]? = some y) (hy : thr < y)
    (hbefore : ∀ i x, i ≤ j → ys[i]? = some x → x ≤ thr) :
    (∀ ys' : List ℝ, Close ε (ys.map some) (ys'.map some) →
      thresholdRelaxation signals time (ys'.map some) thr false = thresholdRelaxation signals time (ys.map some) thr false) ↔
    thr + ε < y ∧ ∀ i x, i ≤ j → ys[i]? = some x → x + ε ≤ thr := by
  have hj' : j + 1 < time.length := by
    rw [hlen]
    exact (List.getElem?_eq_some_iff.1 hj).1
  have hval : ∀ zs : List ℝ, (∃ z, zs[j + 1]? = some z ∧ thr < z) → (∀ i x, i ≤ j → zs[i]? = some x → x ≤ thr) →
      thresholdRelaxation signals time (zs.map some) thr false = .ok ⟨some time[j + 1], some (time[j + 1] - time[j])⟩ := by
    rintro zs ⟨z, hz, hzt⟩ hb
    refine C47_threshold_partial (some_not_none signals zs) (i := j) ⟨⟨some z, by simp [hz], by simpa [Beyond] using hzt⟩, ?_⟩
      (List.getElem?_eq_getElem hj') (List.getElem?_eq_getElem (by omega))
    intro i hi v hv hbv
    rw [List.getElem?_map, Option.map_eq_some_iff] at hv
    obtain ⟨x, hx, rfl⟩ := hv
    have h1 := hb i x (by omega) hx
    have h2 : thr < x := by simpa [Beyond] using hbv
    linarith
  rw [hval ys ⟨y, hj, hy⟩ hbefore]
  have hne : ∀ k (hk : k < time.length), time[k] = time[j + 1] → k = j + 1 := by
    intro k hk h
    rcases lt_trichotomy k (j + 1) with hlt | heq | hgt
    · exact absurd h (List.pairwise_iff_getElem.1 hinc _ _ hk hj' hlt).ne
    · exact heq
    · exact absurd h.symm (List.pairwise_iff_getElem.1 hinc _ _ hj' hk hgt).ne
  have hfound : ∀ zs : List ℝ, time.length = zs.length →
      thresholdRelaxation signals time (zs.map some) thr false = .ok ⟨some time[j + 1], some (time[j + 1] - time[j])⟩ →
      (∃ z, zs[j + 1]? = some z ∧ thr < z) ∧ ∀ i x, i < j + 1 → zs[i]? = some x → x ≤ thr := by
    intro zs hl h
    obtain ⟨k, hk, ⟨e, he⟩, h1, h2⟩ := found_rise (signals := signals) (thr := thr) hl (by omega)
    rw [h] at he
    have := hne k hk (by injection he with he; injection he with he _; injection he with he; exact he.symm)
    subst this
    exact ⟨h1.resolve_left (by omega), h2⟩
  constructor
  · intro h
    constructor
    · have := hfound _ (by simpa using hlen) (h (ys.set (j + 1) (y - ε)) (close_set hε hj (by simp [abs_of_nonneg hε])))
      obtain ⟨⟨z, hz, hzt⟩, -⟩ := this
      rw [List.getElem?_set_self (by omega)] at hz
      obtain rfl := Option.some.inj hz
      linarith
    · intro i x hi hx
      have := hfound _ (by simpa using hlen) (h (ys.set i (x + ε)) (close_set hε hx (by simp [abs_of_nonneg hε])))
      have hx' := this.2 i (x + ε) (by omega) (List.getElem?_set_self (List.getElem?_eq_some_iff.1 hx).1)
      linarith
  · rintro ⟨h1, h2⟩ ys' hc
    have hc' : ∀ (i : ℕ) (z : ℝ), ys'[i]? = some z → ∃ x, ys[i]? = some x ∧ |x - z| ≤ ε := by
      intro i z hz
      unfold Close at hc
      rw [List.forall₂_iff_get] at hc
      obtain ⟨hi, rfl⟩ := List.getElem?_eq_some_iff.1 hz
      have hl : ys.length = ys'.length := by simpa using hc.1
      refine ⟨ys[i], List.getElem?_eq_getElem (by omega), ?_⟩
      have := hc.2 i (by simp; omega) (by simpa using hi)
      simpa [Near] using this
    refine hval ys' ?_ ?_
    · have hl : ys.length = ys'.length := by simpa using hc.length_eq
      have hlt : j + 1 < ys'.length := by omega
      obtain ⟨x, hx, hxz⟩ := hc' (j + 1) _ (List.getElem?_eq_getElem hlt)
      rw [hj] at hx
      obtain rfl := Option.some.inj hx
      refine ⟨_, List.getElem?_eq_getElem hlt, ?_⟩
      have := (abs_le.1 hxz).2
      linarith
    · intro i z hi hz
      obtain ⟨x, hx, hxz⟩ := hc' i z hz
      have := h2 i x hi hx
      have := (abs_le.1 hxz).1
      linarith

/-- A squared displacement that passes 0.16 at its third value by more than a tenth; the last value may be anything. -/
example : ∀ ys' : List ℝ, Close (1 / 20) (([0, 1 / 10, 3 / 10, 16 / 100] : List ℝ).map some) (ys'.map some) →
    thresholdRelaxation true [0, 1, 2, 3] (ys'.map some) (16 / 100) false =
      thresholdRelaxation true [0, 1, 2, 3] (([0, 1 / 10, 3 / 10, 16 / 100] : List ℝ).map some) (16 / 100) false := by
  have two : ∀ (c : ℝ), 0 ≤ c → ∀ (i : ℕ) (x : ℝ), i ≤ 1 → ([0, 1 / 10, 3 / 10, 16 / 100] : List ℝ)[i]? = some x →
      x ≤ 1 / 10 + c := by
    intro c hc i x hi hx
    have : i = 0 ∨ i = 1 := by omega
    rcases this with rfl | rfl
    · obtain rfl := Option.some.inj hx
      linarith
    · obtain rfl := Option.some.inj hx
      linarith
  refine (C140_rise_exactly true (ε := 1 / 20) (thr := 16 / 100) (time := [0, 1, 2, 3]) (ys := [0, 1 / 10, 3 / 10, 16 / 100])
    (by norm_num) rfl (by simp; norm_num) (j := 1) (y := 3 / 10) rfl (by norm_num) (fun i x hi hx => ?_)).2
    ⟨by norm_num, fun i x hi hx => ?_⟩
  · have := two 0 le_rfl i x hi hx
    linarith
  · have := two 0 le_rfl i x hi hx
    linarith

end Verif.RelaxTime
