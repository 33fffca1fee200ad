import Verif.Figures.LegendProps
/-!
# Property C125: exactly when the legend is right up to half a turn
-/

namespace Verif.Figures

variable {C : Type}

/-- **C125, exactly.**  If the hues can be told apart, the legend shows at an angle from 0 to π the colour of the
molecules half a turn from it iff the angle is a whole number of degrees.  (For negative angles it always
does, see `C125_negative_partial`; and nowhere the colour of the molecules of that angle, see `C125_refuted`.) -/
theorem C125_exactly (conv : Nat → Nat → Nat → C) (hc : HuesDiffer conv) (a : ℝ) (ha : 0 ≤ a) (ha' : a < Real.pi) :
    (∃ c, legendOrientation conv a = some c ∧ Drawn conv (a - Real.pi) c) ↔ ∃ k : ℤ, a = k * (Real.pi / 180) := by
  have hp := Real.pi_pos
  obtain ⟨h, hh, he, hl⟩ := legend_hue conv a (by linarith) ha'
  obtain ⟨h', hh', he', hd⟩ := drawn_hue conv (a - Real.pi) (by rw [abs_le]; constructor <;> linarith)
  have e : (a - Real.pi) * 180 / Real.pi = a * 180 / Real.pi - ((180 : ℤ) : ℝ) := by
    push_cast
    field_simp
  have hn : ¬ (0 : ℝ) ≤ (a - Real.pi) * 180 / Real.pi := by
    rw [not_le]
    apply div_neg_of_neg_of_pos _ hp
    nlinarith
  rw [astypeInt, if_neg hn, e, Int.ceil_sub_intCast] at he'
  have h1 := Int.ceil_le_floor_add_one (a * 180 / Real.pi)
  have h2 := Int.floor_le_ceil (a * 180 / Real.pi)
  constructor
  · rintro ⟨c, hc1, hc2⟩
    rw [hl] at hc1
    cases hc1
    have hhh := hc _ _ hh hh' (drawn_unique conv _ _ _ hc2 hd)
    have hfc : ⌈a * 180 / Real.pi⌉ = ⌊a * 180 / Real.pi⌋ := by omega
    refine ⟨⌊a * 180 / Real.pi⌋, ?_⟩
    have h3 := Int.floor_le (a * 180 / Real.pi)
    have h4 := Int.le_ceil (a * 180 / Real.pi)
    rw [hfc] at h4
    have h5 : a * 180 / Real.pi = (⌊a * 180 / Real.pi⌋ : ℝ) := le_antisymm h4 h3
    rw [← h5]
    field_simp
  · rintro ⟨k, hk⟩
    have h5 : a * 180 / Real.pi = (k : ℝ) := by
      rw [hk]
      field_simp
    rw [h5] at he he'
    rw [Int.floor_intCast] at he
    rw [Int.ceil_intCast] at he'
    have : h = h' := by omega
    rw [← this] at hd
    exact ⟨_, hl, hd⟩

/-- A sixth of a turn is a whole number of degrees. -/
example : 0 ≤ Real.pi / 3 ∧ Real.pi / 3 < Real.pi ∧ ∃ k : ℤ, Real.pi / 3 = k * (Real.pi / 180) := by
  have := Real.pi_pos
  refine ⟨by linarith, by linarith, 60, ?_⟩
  push_cast
  ring

end Verif.Figures
