import Verif.Wave.RadiusLemmas
/-!
# C99: exactly which cells the search radius fits in
-/

namespace Verif.Wave

open Verif.Motion

/-- **C99, exactly, in two dimensions.**  The search radius fits in the cell exactly when the shorter of the two
lengths times `√(1 + xy²)` is less than 1.1 of the length along `x`. -/
theorem C99_exactly_2d (c : Cell) (hc : c.Proper) (h2 : c.is2D = true) :
    RadiusFits c ↔ (1 + c.xy ^ 2) * min c.Lx c.Ly ^ 2 < (11 / 10 * c.Lx) ^ 2 := by
  obtain ⟨hx, hy, -⟩ := hc
  have hm : 0 < min c.Lx c.Ly := lt_min hx hy
  have hr : searchRadius c.box = min c.Lx c.Ly / (22 / 10) := by
    simp only [searchRadius, Cell.box, h2, if_true]
    exact min_div_div_right (by norm_num) _ _
  have ha : ∀ a : V3, a = (1, -c.xy, 0) → dot3 a a = 1 + c.xy ^ 2 := by
    rintro a rfl; unfold dot3; simp only; ring
  constructor
  · intro h
    obtain ⟨s, hs1, hs2⟩ := dot3_reached (1, -c.xy, 0) (r := searchRadius c.box) (by rw [hr]; positivity)
      (by rw [ha _ rfl]; positivity)
    obtain ⟨α, β, γ, h1, -, -, h4⟩ := h _ (by simp [Cell.flat, h2]) hs1
    have h5 : α = dot3 (1, -c.xy, 0) (s * 1, s * -c.xy, s * 0) / c.Lx := by
      simp only [Cell.comb, h2, if_true, Prod.smul_mk, smul_eq_mul, Prod.mk_add_mk, Prod.mk.injEq] at h4
      rw [eq_div_iff hx.ne']
      unfold dot3
      simp only
      linear_combination -h4.1 + c.xy * h4.2.1
    rw [h5] at h1
    have := lt_of_dot3 _ _ hx h1 hs2
    rw [ha _ rfl, hr] at this
    nlinarith
  · intro h v hv hlen
    obtain ⟨x, y, z⟩ := v
    have hz0 : z = 0 := by
      unfold Cell.flat at hv
      rw [h2, if_pos rfl] at hv
      exact (congrArg (fun v : V3 => v.2.2) hv).symm
    subst hz0
    have e1 := dot3_lt (1, -c.xy, 0) (x, y, 0) hx (r := searchRadius c.box) (by rw [ha _ rfl, hr]; nlinarith) hlen
    have e2 := dot3_lt (0, 1, 0) (x, y, 0) hy (r := searchRadius c.box) (by
      have : min c.Lx c.Ly ^ 2 ≤ c.Ly ^ 2 := pow_le_pow_left₀ hm.le (min_le_right _ _) 2
      rw [hr]; unfold dot3; simp only; nlinarith) hlen
    refine ⟨_, _, 0, e1, e2, by norm_num, ?_⟩
    simp only [Cell.comb, h2, if_true, Prod.smul_mk, smul_eq_mul, Prod.mk_add_mk, Prod.mk.injEq, dot3]
    refine ⟨?_, ?_, by ring⟩ <;> field_simp <;> ring

/-- **C99, exactly, in three dimensions.**  The search radius fits in the cell exactly when the distances of the
two pairs of faces that can be tilted are more than 10/11 of the shortest of the three lengths. -/
theorem C99_exactly_3d (c : Cell) (hc : c.Proper) (h2 : c.is2D = false) :
    RadiusFits c ↔
      (1 + c.xy ^ 2 + (c.xy * c.yz - c.xz) ^ 2) * min (min c.Lx c.Ly) c.Lz ^ 2 < (11 / 10 * c.Lx) ^ 2 ∧
      (1 + c.yz ^ 2) * min (min c.Lx c.Ly) c.Lz ^ 2 < (11 / 10 * c.Ly) ^ 2 := by
  obtain ⟨hx, hy, hz⟩ := hc
  have hz := hz h2
  have hm : 0 < min (min c.Lx c.Ly) c.Lz := lt_min (lt_min hx hy) hz
  have hr : searchRadius c.box = min (min c.Lx c.Ly) c.Lz / (22 / 10) := by
    simp only [searchRadius, Cell.box, h2, Bool.false_eq_true, if_false]
    rw [min_div_div_right (by norm_num), min_div_div_right (by norm_num)]
  have ha : ∀ a : V3, a = (1, -c.xy, c.xy * c.yz - c.xz) → dot3 a a = 1 + c.xy ^ 2 + (c.xy * c.yz - c.xz) ^ 2 := by
    rintro a rfl; unfold dot3; simp only; ring
  have hb : ∀ a : V3, a = (0, 1, -c.yz) → dot3 a a = 1 + c.yz ^ 2 := by
    rintro a rfl; unfold dot3; simp only; ring
  constructor
  · intro h
    constructor
    · obtain ⟨s, hs1, hs2⟩ := dot3_reached (1, -c.xy, c.xy * c.yz - c.xz) (r := searchRadius c.box)
        (by rw [hr]; positivity) (by rw [ha _ rfl]; positivity)
      obtain ⟨α, β, γ, h1, -, -, h4⟩ := h _ (by simp [Cell.flat, h2]) hs1
      have h5 : α = dot3 (1, -c.xy, c.xy * c.yz - c.xz)
          (s * 1, s * -c.xy, s * (c.xy * c.yz - c.xz)) / c.Lx := by
        simp only [Cell.comb, h2, Bool.false_eq_true, if_false, Prod.smul_mk, smul_eq_mul, Prod.mk_add_mk,
          Prod.mk.injEq] at h4
        rw [eq_div_iff hx.ne']
        unfold dot3
        simp only
        linear_combination -h4.1 + c.xy * h4.2.1 - (c.xy * c.yz - c.xz) * h4.2.2
      rw [h5] at h1
      have := lt_of_dot3 _ _ hx h1 hs2
      rw [ha _ rfl, hr] at this
      nlinarith
    · obtain ⟨s, hs1, hs2⟩ := dot3_reached (0, 1, -c.yz) (r := searchRadius c.box)
        (by rw [hr]; positivity) (by rw [hb _ rfl]; positivity)
      obtain ⟨α, β, γ, -, h1, -, h4⟩ := h _ (by simp [Cell.flat, h2]) hs1
      have h5 : β = dot3 (0, 1, -c.yz) (s * 0, s * 1, s * -c.yz) / c.Ly := by
        simp only [Cell.comb, h2, Bool.false_eq_true, if_false, Prod.smul_mk, smul_eq_mul, Prod.mk_add_mk,
          Prod.mk.injEq] at h4
        rw [eq_div_iff hy.ne']
        unfold dot3
        simp only
        linear_combination -h4.2.1 + c.yz * h4.2.2
      rw [h5] at h1
      have := lt_of_dot3 _ _ hy h1 hs2
      rw [hb _ rfl, hr] at this
      nlinarith
  · rintro ⟨h, h'⟩ v - hlen
    obtain ⟨x, y, z⟩ := v
    have e1 := dot3_lt (1, -c.xy, c.xy * c.yz - c.xz) (x, y, z) hx (r := searchRadius c.box)
      (by rw [ha _ rfl, hr]; nlinarith) hlen
    have e2 := dot3_lt (0, 1, -c.yz) (x, y, z) hy (r := searchRadius c.box)
      (by rw [hb _ rfl, hr]; nlinarith) hlen
    have e3 := dot3_lt (0, 0, 1) (x, y, z) hz (r := searchRadius c.box) (by
      have : min (min c.Lx c.Ly) c.Lz ^ 2 ≤ c.Lz ^ 2 := pow_le_pow_left₀ hm.le (min_le_right _ _) 2
      rw [hr]; unfold dot3; simp only; nlinarith) hlen
    refine ⟨_, _, _, e1, e2, e3, ?_⟩
    simp only [Cell.comb, h2, Bool.false_eq_true, if_false, Prod.smul_mk, smul_eq_mul, Prod.mk_add_mk,
      Prod.mk.injEq, dot3]
    refine ⟨?_, ?_, ?_⟩ <;> field_simp <;> ring

/-- Cells without tilt are always long enough. -/
theorem C99_straight (c : Cell) (hc : c.Proper) (hxy : c.xy = 0) (hxz : c.xz = 0) (hyz : c.yz = 0) :
    RadiusFits c := by
  obtain ⟨hx, hy, hz⟩ := hc
  cases h2 : c.is2D with
  | true =>
    rw [C99_exactly_2d c ⟨hx, hy, hz⟩ h2, hxy]
    have := pow_le_pow_left₀ (lt_min hx hy).le (min_le_left c.Lx c.Ly) 2
    nlinarith
  | false =>
    have hm : 0 < min (min c.Lx c.Ly) c.Lz := lt_min (lt_min hx hy) (hz h2)
    rw [C99_exactly_3d c ⟨hx, hy, hz⟩ h2, hxy, hxz, hyz]
    have h1 := pow_le_pow_left₀ hm.le ((min_le_left (min c.Lx c.Ly) c.Lz).trans (min_le_left _ _)) 2
    have h3 := pow_le_pow_left₀ hm.le ((min_le_left (min c.Lx c.Ly) c.Lz).trans (min_le_right _ _)) 2
    constructor <;> nlinarith

/-- A cell with a tilt of 2 fits when it is long: 12 along `x`, 4 along `y`. -/
example : RadiusFits ⟨12, 4, 1, 2, 0, 0, true⟩ := by
  rw [C99_exactly_2d _ (by simp [Cell.Proper]) rfl]
  norm_num

/-- The same tilt with equal lengths does not fit. -/
example : ¬ RadiusFits ⟨4, 4, 1, 2, 0, 0, true⟩ := by
  rw [C99_exactly_2d _ (by simp [Cell.Proper]) rfl]
  norm_num

/-- Three dimensions, with a tilt of the second vector. -/
example : ¬ RadiusFits ⟨12, 4, 4, 0, 0, 1, false⟩ ∧ RadiusFits ⟨12, 8, 4, 0, 0, 1, false⟩ := by
  rw [C99_exactly_3d _ (by simp [Cell.Proper]) rfl, C99_exactly_3d _ (by simp [Cell.Proper]) rfl]
  norm_num

end Verif.Wave
