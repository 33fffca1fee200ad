import Verif.RelaxTime.Props
/-!
# Property C47: exactly when the error is a gap to an earlier time
-/

namespace Verif.RelaxTime

/-- **C47, exactly.**  For at least two increasing times, the time reported is that of the first value beyond the
threshold and its error the gap to the time before iff some value is beyond the threshold but not the first one;
otherwise the error is negative. -/
theorem C47_exactly {signals : Bool} {time : List ℝ} {value : List (Option ℝ)} {thr : ℝ} {decay : Bool}
    (hs : signals = true → none ∉ value) (hlen : time.length = value.length) (h2 : 2 ≤ time.length)
    (hinc : time.Pairwise (· < ·)) :
    ((∃ t e, thresholdRelaxation signals time value thr decay = .ok ⟨some t, some e⟩ ∧ 0 < e) ↔
      ∃ i, FirstBeyond thr decay value (i + 1)) ∧
    ((¬ ∃ i, FirstBeyond thr decay value (i + 1)) →
      ∃ t e, thresholdRelaxation signals time value thr decay = .ok ⟨some t, some e⟩ ∧ e < 0) := by
  have h0 : time[0]? = some time[0] := List.getElem?_eq_getElem (by omega)
  have hl : time.getLast? = some (time[time.length - 1]'(by omega)) := by
    rw [List.getLast?_eq_getElem?]
    exact List.getElem?_eq_getElem (by omega)
  have hlt : time[0] < time[time.length - 1] := List.pairwise_iff_getElem.1 hinc _ _ _ _ (by omega)
  have hnot : (¬ ∃ i, FirstBeyond thr decay value (i + 1)) →
      thresholdRelaxation signals time value thr decay =
        .ok ⟨some time[0], some (time[0] - time[time.length - 1])⟩ := by
    intro hno
    by_cases hany : ∃ (i : ℕ) (v : Option ℝ), value[i]? = some v ∧ Beyond thr decay v
    · classical
      have hf : FirstBeyond thr decay value (Nat.find hany) := by
        refine ⟨Nat.find_spec hany, fun j hj v hv hb => Nat.find_min hany hj ⟨v, hv, hb⟩⟩
      cases hi : Nat.find hany with
      | zero =>
        rw [hi] at hf
        exact C47_at_once hs hf h0 hl
      | succ i =>
        rw [hi] at hf
        exact absurd ⟨i, hf⟩ hno
    · refine C47_never hs ?_ ?_ h0 hl
      · intro hv
        rw [hv, List.length_nil] at hlen
        omega
      · intro v hv hb
        obtain ⟨i, hi, rfl⟩ := List.mem_iff_getElem.1 hv
        exact hany ⟨i, _, List.getElem?_eq_getElem hi, hb⟩
  refine ⟨⟨?_, ?_⟩, fun hno => ⟨_, _, hnot hno, by linarith⟩⟩
  · rintro ⟨t, e, h, he⟩
    by_contra hno
    rw [hnot hno] at h
    cases h
    linarith
  · rintro ⟨i, hi⟩
    obtain ⟨v, hv, -⟩ := hi.1
    have hi1 : i + 1 < time.length := by
      rw [hlen]
      exact (List.getElem?_eq_some_iff.1 hv).1
    have hi' : time[i] < time[i + 1] := List.pairwise_iff_getElem.1 hinc _ _ _ _ (by omega)
    exact ⟨_, _, C47_threshold_partial hs hi (List.getElem?_eq_getElem hi1)
      (List.getElem?_eq_getElem (by omega)), by linarith⟩

/-- A decay that falls below a half at the third time. -/
example : FirstBeyond (1 / 2) true [some 1, some (3 / 4), some (1 / 4)] (1 + 1) ∧
    ([0, 1, 2] : List ℝ).Pairwise (· < ·) := by
  refine ⟨⟨⟨_, rfl, by norm_num [Beyond]⟩, ?_⟩, by simp⟩
  intro j hj v hv
  have : j = 0 ∨ j = 1 := by omega
  rcases this with rfl | rfl
  · obtain rfl := Option.some.inj hv
    norm_num [Beyond]
  · obtain rfl := Option.some.inj hv
    norm_num [Beyond]

end Verif.RelaxTime
