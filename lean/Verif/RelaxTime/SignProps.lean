import Mathlib.Data.List.Pairwise
import Verif.RelaxTime.Props
/-!
# C47: which results of the threshold can be believed
-/

namespace Verif.RelaxTime

/-- Either no value is beyond the threshold or there is a first one. -/
theorem first_or_none (thr : ℝ) (decay : Bool) (value : List (Option ℝ)) :
    (∀ v ∈ value, ¬ Beyond thr decay v) ∨ ∃ i, FirstBeyond thr decay value i := by
  classical
  by_cases h : ∃ i : ℕ, ∃ v, value[i]? = some v ∧ Beyond thr decay v
  · right
    refine ⟨Nat.find h, Nat.find_spec h, ?_⟩
    intro j hj v hv hb
    exact Nat.find_min h hj ⟨v, hv, hb⟩
  · left
    intro v hv hb
    obtain ⟨i, hi, rfl⟩ := List.mem_iff_getElem.1 hv
    exact h ⟨i, _, List.getElem?_eq_getElem hi, hb⟩

/-- **C47, exactly.**  For times that increase, the error that comes back is positive iff the series crosses
the threshold after its first sample; the time that comes back is then the time of the first value beyond the
threshold.  An error of zero or less marks the series that cross at once or not at all. -/
theorem C47_sign {signals : Bool} {time : List ℝ} {value : List (Option ℝ)} {thr : ℝ} {decay : Bool}
    (hs : signals = true → none ∉ value) (hl : time.length = value.length) (hne : value ≠ [])
    (hinc : time.Pairwise (· < ·)) :
    ∃ t e : ℝ, thresholdRelaxation signals time value thr decay = .ok ⟨some t, some e⟩ ∧
      (0 < e ↔ ∃ i, FirstBeyond thr decay value (i + 1)) ∧
      (0 < e → ∃ i, FirstBeyond thr decay value i ∧ time[i]? = some t) := by
  have hpos : 0 < time.length := hl ▸ List.length_pos_iff.2 hne
  have htne : time ≠ [] := List.length_pos_iff.1 hpos
  have hlt : ∀ (i j : ℕ) (hi : i < time.length) (hj : j < time.length), i < j → time[i] < time[j] :=
    fun i j hi hj h => List.pairwise_iff_getElem.1 hinc i j hi hj h
  have hnot : ¬ (0 : ℝ) < time[0] - time.getLast htne := by
    rw [List.getLast_eq_getElem]
    rcases Nat.lt_or_ge 0 (time.length - 1) with h | h
    · have := hlt 0 (time.length - 1) hpos (by omega) h
      linarith
    · have h0 : time.length - 1 = 0 := by omega
      simp [h0]
  have h0 : time[0]? = some time[0] := List.getElem?_eq_getElem hpos
  have hlast : time.getLast? = some (time.getLast htne) := List.getLast?_eq_some_getLast htne
  rcases first_or_none thr decay value with h | ⟨i, h⟩
  · refine ⟨_, _, C47_never hs hne h h0 hlast, ⟨fun h' => absurd h' hnot, ?_⟩, fun h' => absurd h' hnot⟩
    rintro ⟨i, ⟨v, hv, hb⟩, -⟩
    exact absurd hb (h v (List.mem_of_getElem? hv))
  · cases i with
    | zero =>
      refine ⟨_, _, C47_at_once hs h h0 hlast, ⟨fun h' => absurd h' hnot, ?_⟩, fun h' => absurd h' hnot⟩
      rintro ⟨i, -, hb⟩
      obtain ⟨v, hv, hv'⟩ := h.1
      exact absurd hv' (hb 0 (by omega) v hv)
    | succ i =>
      obtain ⟨v, hv, -⟩ := h.1
      have hi : i + 1 < time.length := by
        rw [hl]
        exact (List.getElem?_eq_some_iff.1 hv).1
      have ht : time[i + 1]? = some time[i + 1] := List.getElem?_eq_getElem hi
      have ht' : time[i]? = some time[i] := List.getElem?_eq_getElem (by omega)
      have := hlt i (i + 1) (by omega) hi (by omega)
      exact ⟨_, _, C47_threshold_partial hs h ht ht', ⟨fun _ => ⟨i, h⟩, fun _ => by linarith⟩,
        fun _ => ⟨i + 1, h, ht⟩⟩

/-- Three increasing times with a NaN among the values. -/
example : ([0, 1, 3] : List ℝ).Pairwise (· < ·) ∧ ([0, 1, 3] : List ℝ).length =
    ([some 1, none, some 0] : List (Option ℝ)).length ∧
    (false = true → none ∉ ([some 1, none, some 0] : List (Option ℝ))) := by
  refine ⟨by simp, rfl, by simp⟩

end Verif.RelaxTime
