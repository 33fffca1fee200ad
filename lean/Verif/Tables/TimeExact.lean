import Verif.Tables.Props
import Verif.RelaxTime.Props
/-!
# Property C53: exactly when a relaxation time of the table is the one from the column of times
-/

namespace Verif.Tables

open Verif.RelaxTime

/-- A decay is reported at the first sample below 1/e. -/
theorem decay_mean {signals : Bool} {fit : List (ℝ × ℝ) → Except PyErr Fit} {time : List ℝ}
    {value : List (Option ℝ)} {c : String} (hlen : time.length = value.length)
    (hdec : c ∉ ["msd", "msr", "struct_msd", "alpha", "gamma"]) (hs : signals = true → none ∉ value) {i : ℕ}
    (hi : FirstBeyond (1 / Real.exp 1) true value i) {t : ℝ} (ht : time[i]? = some t) :
    ∃ e, computeRelaxationValue signals fit time value c = .ok ⟨some t, e⟩ := by
  simp only [List.mem_cons, List.not_mem_nil, or_false, not_or] at hdec
  obtain ⟨h1, h2, h3, h4, h5⟩ := hdec
  unfold computeRelaxationValue
  rw [if_neg (by simpa using hlen), if_neg h1, if_neg h2, if_neg h3, if_neg (by simp [h4, h5])]
  obtain ⟨hlt, -⟩ := List.getElem?_eq_some_iff.1 ht
  cases i with
  | zero =>
    have hl : time.getLast? = some (time[time.length - 1]'(by omega)) := by
      rw [List.getLast?_eq_getElem?]
      exact List.getElem?_eq_getElem (by omega)
    exact ⟨_, C47_at_once hs hi ht hl⟩
  | succ i => exact ⟨_, C47_threshold_partial hs hi ht (List.getElem?_eq_getElem (by omega))⟩

/-- **C53, decays, exactly.**  For a decay that falls below 1/e the table has the relaxation time computed from the
column of times iff the time of the row where it does so first is the number of that row. -/
theorem C53_exactly {signals : Bool} {fit : List (ℝ × ℝ) → Except PyErr Fit}
    {hmean : List ℝ → Except PyErr ℝ} {src : Store} {out : List Summary} {dyn mol : Table}
    (h : computeRelaxations signals fit hmean src = .ok out) (hd : src.dynamics = some dyn)
    (hm : src.molecular = some mol) {s : Summary} (hs : s ∈ out) {k t p : ℝ}
    (hkey : s.key = (k, t, p)) {c : String} (hc : c ∈ dyn.columns)
    (hc' : c ∉ ["keyframe", "temperature", "pressure"])
    (hc'' : c ∉ ["mean_displacement", "mean_rotation", "mfd", "overlap"])
    (hname : ∀ m, c ≠ m ++ "_mean" ∧ c ≠ m ++ "_hmean")
    (hdec : c ∉ ["msd", "msr", "struct_msd", "alpha", "gamma"])
    (hnan : signals = true → none ∉ (rowsOf dyn k t p).map (fun r => r.val c))
    {time : Row → ℝ} (htime : ∀ r ∈ rowsOf dyn k t p, r.val "time" = some (time r)) {i : ℕ} {row : Row}
    (hrow : (rowsOf dyn k t p)[i]? = some row)
    (hi : FirstBeyond (1 / Real.exp 1) true ((rowsOf dyn k t p).map (fun r => r.val c)) i) :
    ∃ r', computeRelaxationValue signals fit ((rowsOf dyn k t p).filterMap (fun r => r.val "time"))
        ((rowsOf dyn k t p).map (fun r => r.val c)) c = .ok r' ∧ r'.mean = some (time row) ∧
      Dict.get? s.vals c = some (some row.index) ∧
      (Dict.get? s.vals c = some r'.mean ↔ time row = row.index) := by
  have hrows : rowsOf dyn k t p ≠ [] := by
    intro h
    rw [h] at hrow
    simp at hrow
  obtain ⟨r, hr, hg, -⟩ := C53_index_partial h hd hm hs hkey hrows hc hc' hc'' hname
  have hidx : ((rowsOf dyn k t p).map Row.index)[i]? = some row.index := by
    rw [List.getElem?_map, hrow]
    rfl
  obtain ⟨e, he⟩ := decay_mean (fit := fit) (by simp) hdec hnan hi hidx
  rw [he] at hr
  have ft : (rowsOf dyn k t p).filterMap (fun r => r.val "time") = (rowsOf dyn k t p).map time := by
    rw [List.filterMap_congr (g := fun r => some (time r)) htime]
    rw [List.filterMap_eq_map']
  have htm : ((rowsOf dyn k t p).map time)[i]? = some (time row) := by
    rw [List.getElem?_map, hrow]
    rfl
  obtain ⟨e', he'⟩ := decay_mean (fit := fit) (by simp) hdec hnan hi htm
  rw [ft]
  have hg' : Dict.get? s.vals c = some (some row.index) := by
    rw [hg, ← Except.ok.inj hr]
  refine ⟨_, he', rfl, hg', ?_⟩
  rw [hg']
  constructor
  · intro h
    exact (Option.some.inj (Option.some.inj h)).symm
  · intro h
    simp only [h]

/-- The table of `C53_refuted`: `rot1` is below 1/e in row 1, whose time is 200. -/
example : (rowsOf twoTimes 0 1 2).map (fun r => r.val "rot1") = [some 1, some (1 / 10)] ∧
    FirstBeyond (1 / Real.exp 1) true [some 1, some (1 / 10)] 1 ∧
    (rowsOf twoTimes 0 1 2).map (fun r => r.val "time") = [some 100, some 200] := by
  have hrows : rowsOf twoTimes 0 1 2 = twoTimes.rows := by
    unfold rowsOf
    rw [List.filter_eq_self]
    intro r hr
    simp only [twoTimes, List.mem_cons, List.not_mem_nil, or_false] at hr
    simp only [decide_eq_true_eq]
    rcases hr with rfl | rfl <;> exact ⟨rfl, rfl, rfl⟩
  have he := Real.exp_one_lt_d9
  have he' := Real.exp_one_gt_d9
  have hlt : (1 / 10 : ℝ) < 1 / Real.exp 1 := by
    apply one_div_lt_one_div_of_lt (Real.exp_pos 1)
    linarith
  have hlt' : 1 / Real.exp 1 < 1 := by
    rw [div_lt_one (Real.exp_pos 1)]
    linarith
  refine ⟨by rw [hrows]; rfl, ⟨⟨some (1 / 10), rfl, by simpa [Beyond] using hlt⟩, ?_⟩, by rw [hrows]; rfl⟩
  intro j hj v hv
  obtain rfl : j = 0 := by omega
  obtain rfl := Option.some.inj hv
  simp only [Beyond]
  intro h
  simp at h
  have : (1 : ℝ) < (Real.exp 1)⁻¹ := by simpa using h
  rw [one_div] at hlt'
  linarith

end Verif.Tables
