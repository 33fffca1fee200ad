import Mathlib.Tactic.Linarith
import Mathlib.Tactic.FieldSimp
import Verif.RelaxTime.UnitsSpec
import Verif.RelaxTime.Lemmas
/-!
# Lemmas for a change of units
-/

namespace Verif.RelaxTime

theorem pyAt_map {α β : Type} (f : α → β) (l : List α) (i : ℤ) : pyAt (l.map f) i = (pyAt l i).map f := by
  unfold pyAt
  simp only [List.length_map, List.getElem?_map]
  generalize (if i < 0 then i + (l.length : ℤ) else i) = j
  split
  · cases l[j.toNat]? <;> rfl
  · rfl

theorem sse_mid (pts : List (ℝ × ℝ)) (m b m' b' : ℝ) :
    2 * sse pts ((m + m') / 2) ((b + b') / 2) + 1 / 2 * (pts.map (fun p => ((m - m') * p.1 + (b - b')) ^ 2)).sum =
      sse pts m b + sse pts m' b' := by
  unfold sse
  induction pts with
  | nil => simp
  | cons p ps ih =>
    simp only [List.map_cons, List.sum_cons]
    linear_combination ih

/-- The line of smallest squared error is unique when there are two times. -/
theorem least_unique {pts : List (ℝ × ℝ)} {m b m' b' : ℝ} (h : ∀ x y, sse pts m b ≤ sse pts x y)
    (h' : ∀ x y, sse pts m' b' ≤ sse pts x y) {p q : ℝ × ℝ} (hp : p ∈ pts) (hq : q ∈ pts) (hne : p.1 ≠ q.1) :
    m = m' := by
  have e := sse_mid pts m b m' b'
  have e1 := h ((m + m') / 2) ((b + b') / 2)
  have e2 := h' ((m + m') / 2) ((b + b') / 2)
  have nn : ∀ x ∈ pts.map (fun p => ((m - m') * p.1 + (b - b')) ^ 2), (0 : ℝ) ≤ x := by
    intro x hx
    obtain ⟨p, -, rfl⟩ := List.mem_map.1 hx
    positivity
  have z (r : ℝ × ℝ) (hr : r ∈ pts) : (m - m') * r.1 + (b - b') = 0 := by
    have := List.single_le_sum nn _ (List.mem_map_of_mem hr)
    have h0 : ((m - m') * r.1 + (b - b')) ^ 2 ≤ 0 := by linarith
    exact pow_eq_zero_iff (two_ne_zero) |>.1 (le_antisymm h0 (sq_nonneg _))
  have z1 := z p hp
  have z2 := z q hq
  have : (m - m') * (p.1 - q.1) = 0 := by linear_combination z1 - z2
  rcases mul_eq_zero.1 this with h | h
  · linarith
  · exact absurd (by linarith) hne

theorem sse_rescaled {τ : ℝ} (hτ : τ ≠ 0) (μ : ℝ) (pts : List (ℝ × ℝ)) (m b : ℝ) :
    sse (pts.map (fun p => (τ * p.1, μ * p.2))) (μ / τ * m) (μ * b) = μ ^ 2 * sse pts m b := by
  unfold sse
  induction pts with
  | nil => simp
  | cons p ps ih =>
    simp only [List.map_cons, List.sum_cons] at ih ⊢
    rw [ih]
    have : μ / τ * m * (τ * p.1) = μ * (m * p.1) := by field_simp
    rw [this]
    ring

/-- Rescaled points have the rescaled slope. -/
theorem slope_rescaled {fit : List (ℝ × ℝ) → Except PyErr Fit} (hfit : LeastSquares fit) {τ μ : ℝ} (hτ : 0 < τ)
    (hμ : 0 < μ) {pts : List (ℝ × ℝ)} {f f' : Fit} (hf : fit pts = .ok f)
    (hf' : fit (pts.map (fun p => (τ * p.1, μ * p.2))) = .ok f') {p q : ℝ × ℝ} (hp : p ∈ pts) (hq : q ∈ pts)
    (hne : p.1 ≠ q.1) : f'.p0 = μ / τ * f.p0 := by
  have h1 := hfit _ _ hf
  have h2 := hfit _ _ hf'
  have h3 : ∀ x y, sse pts (τ / μ * f'.p0) (1 / μ * f'.p1) ≤ sse pts x y := by
    intro x y
    have e := h2 (μ / τ * x) (μ * y)
    rw [sse_rescaled hτ.ne', ← show μ / τ * (τ / μ * f'.p0) = f'.p0 by field_simp,
      ← show μ * (1 / μ * f'.p1) = f'.p1 by field_simp, sse_rescaled hτ.ne'] at e
    exact le_of_mul_le_mul_left e (by positivity)
  rw [least_unique h1 h3 hp hq hne]
  field_simp

theorem region_time (τ : ℝ) (time : List ℝ) (value : List (Option ℝ)) :
    region 2 50 (time.map (τ * ·)) value = (region 2 50 time value).map (fun p => (τ * p.1, 1 * p.2)) := by
  unfold region
  rw [List.zip_map_left, List.filterMap_map, List.map_filterMap]
  congr 1
  funext p
  rcases p with ⟨t, _ | x⟩
  · rfl
  · simp only [Function.comp_apply, Prod.map_apply, id_eq]
    split <;> simp

theorem between_same {μ : ℝ} {value : List (Option ℝ)} (h : SameRegion μ value) {v : Option ℝ} (hv : v ∈ value) :
    between 2 50 (v.map (μ * ·)) = between 2 50 v := by
  cases v with
  | none => rfl
  | some x =>
    have := h x hv
    simp only [Option.map_some, between, ← Bool.decide_and, decide_eq_decide]
    exact this.symm

theorem region_value {μ : ℝ} {value : List (Option ℝ)} (h : SameRegion μ value) (time : List ℝ) :
    region 2 50 time (value.map (Option.map (μ * ·))) =
      (region 2 50 time value).map (fun p => (1 * p.1, μ * p.2)) := by
  unfold region
  rw [List.zip_map_right, List.filterMap_map, List.map_filterMap]
  apply List.filterMap_congr
  rintro ⟨t, v⟩ hp
  have hv : v ∈ value := (List.of_mem_zip hp).2
  have hb := between_same h hv
  rcases v with _ | x
  · rfl
  · simp only [Option.map_some] at hb
    simp only [Function.comp_apply, Prod.map_apply, id_eq, Option.map_some, hb]
    split <;> simp

theorem filter_value {μ : ℝ} {value : List (Option ℝ)} (h : SameRegion μ value) :
    ((value.map (Option.map (μ * ·))).filter (between 2 50)).length = (value.filter (between 2 50)).length := by
  rw [← List.countP_eq_length_filter, ← List.countP_eq_length_filter, List.countP_map]
  apply List.countP_congr
  intro v hv
  simp only [Function.comp_apply, between_same h hv]

theorem diffusion_some {signals : Bool} {fit : List (ℝ × ℝ) → Except PyErr Fit} {time : List ℝ}
    {value : List (Option ℝ)} {dim : ℕ} {x : ℝ} {e : Option ℝ}
    (h : diffusionConstant signals fit time value dim = .ok ⟨some x, e⟩) :
    ∃ f, fit (region 2 50 time value) = .ok f ∧ x = f.p0 / (2 * dim) := by
  unfold diffusionConstant at h
  split at h
  · cases h
  · split at h
    · cases h
    · split at h
      · cases h
      · split at h
        · cases h
        · cases h
        · rename_i f hf
          refine ⟨f, hf, ?_⟩
          split at h
          · simp only [Except.ok.injEq, Result.mk.injEq, Option.some.injEq] at h
            exact h.1.symm
          · cases h

end Verif.RelaxTime
