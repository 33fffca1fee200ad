import Verif.RelaxTime.UnitsProps
/-!
# C136: the diffusion constant of a straight line follows the unit of length
-/

namespace Verif.RelaxTime

/-- The slope of points on a line. -/
theorem slope_line {fit : List (ℝ × ℝ) → Except PyErr Fit} (hfit : LeastSquares fit) {pts : List (ℝ × ℝ)} {f : Fit}
    (hf : fit pts = .ok f) {m b : ℝ} (hline : ∀ p ∈ pts, p.2 = m * p.1 + b) {p q : ℝ × ℝ} (hp : p ∈ pts) (hq : q ∈ pts)
    (hne : p.1 ≠ q.1) : f.p0 = m := by
  have hzero : sse pts m b = 0 := by
    unfold sse
    refine List.sum_eq_zero fun x hx => ?_
    obtain ⟨p, hp, rfl⟩ := List.mem_map.1 hx
    rw [hline p hp]
    ring
  have h0 : sse pts f.p0 f.p1 = 0 := le_antisymm (hzero ▸ hfit _ _ hf m b) (sse_nonneg _ _ _)
  have hp' := sse_zero h0 p hp
  have hq' := sse_zero h0 q hq
  rw [hline p hp] at hp'
  rw [hline q hq] at hq'
  have : (f.p0 - m) * (p.1 - q.1) = 0 := by linear_combination hp' - hq'
  rcases mul_eq_zero.1 this with h | h
  · linarith
  · exact absurd (by linarith) hne

/-- **C136, straight lines.**  If all values are on one straight line, the diffusion constant follows the unit of length
whatever values are between 2 and 50 in the one unit and in the other, as long as two times are among them in both: it is
the bends of the msd that make the constant depend on the unit. -/
theorem C136_line {signals : Bool} {fit : List (ℝ × ℝ) → Except PyErr Fit} (hfit : LeastSquares fit) {μ : ℝ}
    {time : List ℝ} {value : List (Option ℝ)} {m b : ℝ} (hline : ∀ t x, (t, some x) ∈ time.zip value → x = m * t + b)
    (h2 : TwoTimes time value) (h2' : TwoTimes time (value.map (Option.map (μ * ·)))) {dim : ℕ}
    {x y : ℝ} {e e' : Option ℝ} (h : diffusionConstant signals fit time value dim = .ok ⟨some x, e⟩)
    (h' : diffusionConstant signals fit time (value.map (Option.map (μ * ·))) dim = .ok ⟨some y, e'⟩) :
    x = m / (2 * dim) ∧ y = μ * x := by
  obtain ⟨t₁, x₁, t₂, x₂, m1, m2, a1, a2, b1, b2, hne⟩ := h2
  obtain ⟨s₁, y₁, s₂, y₂, n1, n2, c1, c2, d1, d2, hne'⟩ := h2'
  obtain ⟨f, hf, rfl⟩ := diffusion_some h
  obtain ⟨f', hf', rfl⟩ := diffusion_some h'
  have e1 := slope_line hfit hf (m := m) (b := b) (fun p hp => hline _ _ (mem_region.1 hp).1)
    (mem_region.2 ⟨m1, a1, a2⟩) (mem_region.2 ⟨m2, b1, b2⟩) hne
  have e2 := slope_line hfit hf' (m := μ * m) (b := μ * b) (fun p hp => by
      have hm := (mem_region.1 hp).1
      rw [List.zip_map_right, List.mem_map] at hm
      obtain ⟨⟨t, v⟩, hv, hpv⟩ := hm
      simp only [Prod.map_apply, id_eq, Prod.mk.injEq] at hpv
      obtain ⟨ht, hx⟩ := hpv
      obtain ⟨z, rfl, hz⟩ := Option.map_eq_some_iff.1 hx
      rw [← hz, ← ht, hline t z hv]
      ring)
    (mem_region.2 ⟨n1, c1, c2⟩) (mem_region.2 ⟨n2, d1, d2⟩) hne'
  rw [e1, e2]
  exact ⟨rfl, by ring⟩

/-- 3, 4, 5, 6, 7 at the times 1, …, 5, and half of them: the first two of these are not above 2. -/
example : ∃ fit x y e e', LeastSquares fit ∧
    diffusionConstant false fit [1, 2, 3, 4, 5] [some 3, some 4, some 5, some 6, some 7] = .ok ⟨some x, e⟩ ∧
    diffusionConstant false fit [1, 2, 3, 4, 5]
      (([some 3, some 4, some 5, some 6, some 7] : List (Option ℝ)).map (Option.map ((1 / 2) * ·))) = .ok ⟨some y, e'⟩ ∧
    ¬ SameRegion (1 / 2) [some 3, some 4, some 5, some 6, some 7] ∧ y = 1 / 2 * x := by
  obtain ⟨fit, hfit, hok⟩ := line_constant
  have hb : ∀ x : ℝ, 2 < x → x < 50 → between 2 50 (some x) = true := by
    intro x h1 h2
    simp [between, h1, h2]
  have hz : (([some 3, some 4, some 5, some 6, some 7] : List (Option ℝ)).map (Option.map ((1 / 2) * ·))) =
      [some (3 / 2), some 2, some (5 / 2), some 3, some (7 / 2)] := by
    norm_num
  have hline : ∀ t x : ℝ, (t, some x) ∈ ([1, 2, 3, 4, 5] : List ℝ).zip [some 3, some 4, some 5, some 6, some 7] →
      x = 1 * t + 2 := by
    intro t x h
    simp only [List.zip_cons_cons, List.zip_nil_right, List.mem_cons, Prod.mk.injEq, Option.some.injEq, List.not_mem_nil,
      or_false] at h
    rcases h with ⟨rfl, rfl⟩ | ⟨rfl, rfl⟩ | ⟨rfl, rfl⟩ | ⟨rfl, rfl⟩ | ⟨rfl, rfl⟩ <;> norm_num
  have hline' : ∀ t x : ℝ, (t, some x) ∈ ([1, 2, 3, 4, 5] : List ℝ).zip
      [some (3 / 2), some 2, some (5 / 2), some 3, some (7 / 2)] → 1 / 2 * t + 2 * (1 / 2) = x := by
    intro t x h
    simp only [List.zip_cons_cons, List.zip_nil_right, List.mem_cons, Prod.mk.injEq, Option.some.injEq, List.not_mem_nil,
      or_false] at h
    rcases h with ⟨rfl, rfl⟩ | ⟨rfl, rfl⟩ | ⟨rfl, rfl⟩ | ⟨rfl, rfl⟩ | ⟨rfl, rfl⟩ <;> norm_num
  obtain ⟨x, hx⟩ := hok 1 [1, 2, 3, 4, 5] [some 3, some 4, some 5, some 6, some 7] rfl (by
    rw [List.filter_eq_self.2 (by
      intro v hv
      simp only [List.mem_cons, List.not_mem_nil, or_false] at hv
      rcases hv with rfl | rfl | rfl | rfl | rfl <;> exact hb _ (by norm_num) (by norm_num))]
    simp) (fun p hp => by have := hline _ _ (mem_region.1 hp).1; linarith)
  obtain ⟨y, hy⟩ := hok (1 / 2) [1, 2, 3, 4, 5] [some (3 / 2), some 2, some (5 / 2), some 3, some (7 / 2)] rfl (by
    have h1 := hb (5 / 2) (by norm_num) (by norm_num)
    have h2 := hb 3 (by norm_num) (by norm_num)
    have h3 := hb (7 / 2) (by norm_num) (by norm_num)
    rw [List.filter_cons, List.filter_cons, List.filter_cons_of_pos h1, List.filter_cons_of_pos h2,
      List.filter_cons_of_pos h3]
    split <;> split <;> simp) (fun p hp => hline' _ _ (mem_region.1 hp).1)
  refine ⟨fit, x, y, _, _, hfit, hx, hz ▸ hy, ?_, ?_⟩
  · intro h
    have := (h 3 (by simp)).1 (by norm_num)
    norm_num at this
  · refine (C136_line hfit hline ⟨1, 3, 2, 4, by simp, by simp, by norm_num, by norm_num, by norm_num, by norm_num,
      by norm_num⟩ ?_ hx (hz ▸ hy)).2
    rw [hz]
    exact ⟨3, 5 / 2, 4, 3, by simp, by simp, by norm_num, by norm_num, by norm_num, by norm_num, by norm_num⟩

end Verif.RelaxTime
