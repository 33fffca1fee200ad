import Verif.Pipeline.PartsProps
/-!
# C151: the ratios of a system made of two parts, exactly
-/

namespace Verif.Pipeline

open Verif.Motion Verif.Dynamics Verif.Relax Verif.Gsd Verif.Process Verif.Cache

variable {N N₁ N₂ : ℕ} {ν ι : Type} [DecidableEq ι]

theorem excess_some {b k x : ℝ} (h : excess b k = some x) : k ≠ 0 ∧ b = (1 + x) * k := by
  classical
  unfold excess at h
  split at h
  · cases h
  rename_i hk
  obtain rfl := Option.some.inj h
  exact ⟨hk, by field_simp; ring⟩

/-- The ratio of means of two parts. -/
theorem ratio_parts {w₁ w₂ a₁ a₂ c₁ c₂ b₁ b₂ k x₁ x₂ x : ℝ} (hk : k ≠ 0) (hw : w₁ + w₂ ≠ 0)
    (h₁ : excess b₁ (k * (a₁ * c₁)) = some x₁) (h₂ : excess b₂ (k * (a₂ * c₂)) = some x₂)
    (h : excess ((w₁ * b₁ + w₂ * b₂) / (w₁ + w₂))
      (k * ((w₁ * a₁ + w₂ * a₂) / (w₁ + w₂) * ((w₁ * c₁ + w₂ * c₂) / (w₁ + w₂)))) = some x) :
    (1 + x) * ((w₁ * a₁ + w₂ * a₂) * (w₁ * c₁ + w₂ * c₂)) =
      (w₁ + w₂) * (w₁ * ((1 + x₁) * (a₁ * c₁)) + w₂ * ((1 + x₂) * (a₂ * c₂))) := by
  have e₁ := (excess_some h₁).2
  have e₂ := (excess_some h₂).2
  have e := (excess_some h).2
  rw [e₁, e₂] at e
  field_simp at e
  have : k * ((1 + x) * ((w₁ * a₁ + w₂ * a₂) * (w₁ * c₁ + w₂ * c₂))) =
      k * ((w₁ + w₂) * (w₁ * ((1 + x₁) * (a₁ * c₁)) + w₂ * ((1 + x₂) * (a₂ * c₂)))) := by
    linear_combination -k * e
  exact mul_left_cancel₀ hk this

/-- **C151, the ratios exactly.**  What is reported for the whole is fixed by the numbers of molecules and what is
reported for the parts.  `1 + x` times the product of the mean squares is an average, which is that of the averages of the
parts weighted with their numbers of molecules. -/
theorem C151_ratios_exactly (a : Args) (c : Cell)
    (hdim : decide (a.mol.dimensions = 2) = c.is2D) (hmol : a.mol.positions ≠ []) (hdef : a.relaxations = none)
    {n : ℕ} {t t₁ t₂ : ℕ → ℤ} {u₁ s₁ : ℕ → Fin N₁ → V3} {θ₁ σ₁ : ℕ → Fin N₁ → ℝ}
    {o₁ : ℕ → Option (Fin N₁ → Quat)} {u₂ s₂ : ℕ → Fin N₂ → V3} {θ₂ σ₂ : ℕ → Fin N₂ → ℝ}
    {o₂ : ℕ → Option (Fin N₂ → Quat)} {k₁ k₂ k : ι}
    {f₁ f₂ f : File (Rec ι (Dict Quantity Val) (Dict String ℤ) ν)}
    (h₁ : RunOf a c n t₁ u₁ s₁ θ₁ σ₁ o₁ k₁ f₁) (h₂ : RunOf a c n t₂ u₂ s₂ θ₂ σ₂ o₂ k₂ f₂)
    (h : RunOf a c n t (joined u₁ u₂) (joined s₁ s₂) (joined θ₁ θ₂) (joined σ₁ σ₂) (joinedO o₁ o₂) k f)
    {i : ℕ} (hi : i ≤ n) :
    ∃ r₁ r₂ r, ((rows f₁ "dynamics").filterMap (dynOf k₁))[i]? = some r₁ ∧
      ((rows f₂ "dynamics").filterMap (dynOf k₂))[i]? = some r₂ ∧
      ((rows f "dynamics").filterMap (dynOf k))[i]? = some r ∧
      ∃ d₁ d₂ φ₁ φ₂ : ℝ, Reports r₁ .msd d₁ ∧ Reports r₂ .msd d₂ ∧ Reports r₁ .msr φ₁ ∧ Reports r₂ .msr φ₂ ∧
        (∀ x₁ x₂ x, Reports r₁ .alpha x₁ → Reports r₂ .alpha x₂ → Reports r .alpha x →
          (1 + x) * ((N₁ * d₁ + N₂ * d₂) * (N₁ * d₁ + N₂ * d₂)) =
            (N₁ + N₂) * (N₁ * ((1 + x₁) * (d₁ * d₁)) + N₂ * ((1 + x₂) * (d₂ * d₂)))) ∧
        (∀ x₁ x₂ x, Reports r₁ .alpha_rot x₁ → Reports r₂ .alpha_rot x₂ → Reports r .alpha_rot x →
          (1 + x) * ((N₁ * φ₁ + N₂ * φ₂) * (N₁ * φ₁ + N₂ * φ₂)) =
            (N₁ + N₂) * (N₁ * ((1 + x₁) * (φ₁ * φ₁)) + N₂ * ((1 + x₂) * (φ₂ * φ₂)))) ∧
        (∀ x₁ x₂ x, Reports r₁ .gamma x₁ → Reports r₂ .gamma x₂ → Reports r .gamma x →
          (1 + x) * ((N₁ * d₁ + N₂ * d₂) * (N₁ * φ₁ + N₂ * φ₂)) =
            (N₁ + N₂) * (N₁ * ((1 + x₁) * (d₁ * φ₁)) + N₂ * ((1 + x₂) * (d₂ * φ₂)))) := by
  obtain ⟨r₁, g₁, T₁, R₁, -⟩ := h₁.row hdim hmol hdef hi
  obtain ⟨r₂, g₂, T₂, R₂, -⟩ := h₂.row hdim hmol hdef hi
  obtain ⟨r, g, -, R, -⟩ := h.row hdim hmol hdef hi
  have p₁ : 0 < N₁ := by have := h₁.many; omega
  have p₂ : 0 < N₂ := by have := h₂.many; omega
  have q₁ : (0 : ℝ) < N₁ := by exact_mod_cast p₁
  have q₂ : (0 : ℝ) < N₂ := by exact_mod_cast p₂
  refine ⟨r₁, r₂, r, g₁, g₂, g, _, _, _, _, T₁.msd, T₂.msd, T₁.msr, T₂.msr, ?_, ?_, ?_⟩
  · intro x₁ x₂ x e₁ e₂ e
    have E₁ := Option.some.inj (R₁.alpha.symm.trans e₁)
    have E₂ := Option.some.inj (R₂.alpha.symm.trans e₂)
    have E := Option.some.inj (R.alpha.symm.trans e)
    simp only [Val.num.injEq, len_sq] at E₁ E₂ E
    simp only [avg_parts p₁ p₂, joined, Fin.append_left, Fin.append_right] at E
    rw [sq] at E₁ E₂ E
    exact ratio_parts two_ne_zero (by positivity) E₁ E₂ E
  · intro x₁ x₂ x e₁ e₂ e
    have E₁ := Option.some.inj (R₁.alpha_rot.symm.trans e₁)
    have E₂ := Option.some.inj (R₂.alpha_rot.symm.trans e₂)
    have E := Option.some.inj (R.alpha_rot.symm.trans e)
    simp only [Val.num.injEq] at E₁ E₂ E
    simp only [avg_parts p₁ p₂, joined, Fin.append_left, Fin.append_right] at E
    rw [sq] at E₁ E₂ E
    exact ratio_parts three_ne_zero (by positivity) E₁ E₂ E
  · intro x₁ x₂ x e₁ e₂ e
    have E₁ := Option.some.inj (R₁.gamma.symm.trans e₁)
    have E₂ := Option.some.inj (R₂.gamma.symm.trans e₂)
    have E := Option.some.inj (R.gamma.symm.trans e)
    simp only [Val.num.injEq, len_sq] at E₁ E₂ E
    simp only [avg_parts p₁ p₂, joined, Fin.append_left, Fin.append_right] at E
    have one : ∀ {b z : ℝ} {v : Option ℝ}, excess b z = v → excess b (1 * z) = v := by
      intro b z v hv
      rwa [one_mul]
    exact ratio_parts one_ne_zero (by positivity) (one E₁) (one E₂) (one E)

/-- Ten molecules that move by 1 and turn by 2, and ten that move by 2 and turn by 1: both parts have −1/2, and the whole
−8/25 = (1/2) (1 + 16) 2 / (1 + 4)² − 1. -/
example : ∃ (f₁ f₂ f : File (Rec ℕ (Dict Quantity Val) (Dict String ℤ) Unit)),
    RunOf tA wideC 1 tT (wideU 1) (wideU 1) (wθ 2) (fun _ _ => 1) (wideO 2) 0 f₁ ∧
    RunOf tA wideC 1 tT (wideU 2) (wideU 2) (wθ 1) (fun _ _ => 1) (wideO 1) 0 f₂ ∧
    RunOf tA wideC 1 tT (joined (wideU 1) (wideU 2)) (joined (wideU 1) (wideU 2)) (joined (wθ 2) (wθ 1))
      (joined (fun _ _ => 1) (fun _ _ => 1)) (joinedO (wideO 2) (wideO 1)) 0 f ∧
    ∃ r₁ r₂ r, ((rows f₁ "dynamics").filterMap (dynOf 0))[1]? = some r₁ ∧
      ((rows f₂ "dynamics").filterMap (dynOf 0))[1]? = some r₂ ∧
      ((rows f "dynamics").filterMap (dynOf 0))[1]? = some r ∧
      Reports r₁ .alpha (-1 / 2) ∧ Reports r₂ .alpha (-1 / 2) ∧ Reports r .alpha (-8 / 25) := by
  obtain ⟨f₁, f₂, f, r₁, r₂, r, h₁, h₂, h, g₁, g₂, g, a₁, a₂, a, -⟩ := wide_values
  exact ⟨f₁, f₂, f, h₁, h₂, h, r₁, r₂, r, g₁, g₂, g, a₁, a₂, a⟩

/-- **C151, when equal parameters are kept.**  If both parts report the same non-Gaussian parameter, the whole reports it
as well exactly when the parts also report the same mean squared displacement. -/
theorem C151_alpha_exactly (a : Args) (c : Cell)
    (hdim : decide (a.mol.dimensions = 2) = c.is2D) (hmol : a.mol.positions ≠ []) (hdef : a.relaxations = none)
    {n : ℕ} {t t₁ t₂ : ℕ → ℤ} {u₁ s₁ : ℕ → Fin N₁ → V3} {θ₁ σ₁ : ℕ → Fin N₁ → ℝ}
    {o₁ : ℕ → Option (Fin N₁ → Quat)} {u₂ s₂ : ℕ → Fin N₂ → V3} {θ₂ σ₂ : ℕ → Fin N₂ → ℝ}
    {o₂ : ℕ → Option (Fin N₂ → Quat)} {k₁ k₂ k : ι}
    {f₁ f₂ f : File (Rec ι (Dict Quantity Val) (Dict String ℤ) ν)}
    (h₁ : RunOf a c n t₁ u₁ s₁ θ₁ σ₁ o₁ k₁ f₁) (h₂ : RunOf a c n t₂ u₂ s₂ θ₂ σ₂ o₂ k₂ f₂)
    (h : RunOf a c n t (joined u₁ u₂) (joined s₁ s₂) (joined θ₁ θ₂) (joined σ₁ σ₂) (joinedO o₁ o₂) k f)
    {i : ℕ} (hi : i ≤ n) :
    ∃ r₁ r₂ r, ((rows f₁ "dynamics").filterMap (dynOf k₁))[i]? = some r₁ ∧
      ((rows f₂ "dynamics").filterMap (dynOf k₂))[i]? = some r₂ ∧
      ((rows f "dynamics").filterMap (dynOf k))[i]? = some r ∧
      ∃ d₁ d₂ : ℝ, Reports r₁ .msd d₁ ∧ Reports r₂ .msd d₂ ∧
        ∀ x y, Reports r₁ .alpha x → Reports r₂ .alpha x → Reports r .alpha y → (y = x ↔ d₁ = d₂) := by
  have p₁ : (0 : ℝ) < N₁ := by have := h₁.many; exact_mod_cast (by omega : 0 < N₁)
  have p₂ : (0 : ℝ) < N₂ := by have := h₂.many; exact_mod_cast (by omega : 0 < N₂)
  obtain ⟨r₁, r₂, r', g₁, g₂, g', d₁, d₂, φ₁, φ₂, D₁, D₂, -, -, A, -⟩ := C151_ratios_exactly a c hdim hmol hdef h₁ h₂ h hi
  obtain ⟨r₁', g₁', T₁, R₁, -⟩ := h₁.row hdim hmol hdef hi
  obtain rfl := Option.some.inj (g₁.symm.trans g₁')
  obtain ⟨r₂', g₂', T₂, R₂, -⟩ := h₂.row hdim hmol hdef hi
  obtain rfl := Option.some.inj (g₂.symm.trans g₂')
  refine ⟨r₁, r₂, r', g₁, g₂, g', d₁, d₂, D₁, D₂, fun x y e₁ e₂ e => ?_⟩
  have key := A x x y e₁ e₂ e
  have nn : ∀ {M : ℕ} (f : Fin M → V3), 0 ≤ avg (fun m => len2 (f m)) := fun f =>
    div_nonneg (Finset.sum_nonneg fun m _ => len2_nonneg _) (Nat.cast_nonneg _)
  have pos : ∀ {M : ℕ} {row : Dict Quantity Val} {f : Fin M → V3} {ψ : Fin M → ℝ} {d : ℝ}, TrueRatios row f ψ →
      Reports row .msd (avg fun m => len2 (f m)) → Reports row .msd d → Reports row .alpha x → 0 < d ∧ 1 + x ≠ 0 := by
    intro M row f ψ d hR hT hd hα
    have E := Option.some.inj (hR.alpha.symm.trans hα)
    have Ed := Option.some.inj (hT.symm.trans hd)
    simp only [Val.num.injEq, len_sq, Option.some.injEq] at E Ed
    obtain ⟨hn, hb⟩ := excess_some E
    refine ⟨lt_of_le_of_ne (Ed ▸ nn f) ?_, fun h0 => hn ?_⟩
    · rintro rfl
      rw [Ed] at hn
      simp at hn
    · rw [h0, zero_mul, avg, div_eq_zero_iff] at hb
      rcases hb with hb | hb
      · rw [Finset.sum_eq_zero_iff_of_nonneg (fun m _ => by positivity)] at hb
        have : ∀ m, len2 (f m) = 0 := fun m => by
          rw [← len_sq, pow_eq_zero_iff (by norm_num : 4 ≠ 0) |>.1 (hb m (Finset.mem_univ m))]
          norm_num
        simp [avg, this]
      · simp [avg, hb]
  obtain ⟨q₁, hx'⟩ := pos R₁ T₁.msd D₁ e₁
  have q₂ := (pos R₂ T₂.msd D₂ e₂).1
  constructor
  · rintro rfl
    have h0 : (1 + y) * (N₁ * N₂ * ((d₁ - d₂) * (d₁ - d₂))) = 0 := by linear_combination -key
    have h1 := (mul_eq_zero.1 h0).resolve_left hx'
    have h2 := (mul_eq_zero.1 h1).resolve_left (by positivity)
    have h3 := mul_self_eq_zero.1 h2
    linarith
  · rintro rfl
    have hne : ((N₁ * d₁ + N₂ * d₁) * (N₁ * d₁ + N₂ * d₁) : ℝ) ≠ 0 := by positivity
    have : 1 + y = 1 + x := mul_right_cancel₀ hne (by linear_combination key)
    linarith

/-- Two parts that move by different lengths: both report −1/2, and the whole something else. -/
example : ∃ (f₁ f₂ f : File (Rec ℕ (Dict Quantity Val) (Dict String ℤ) Unit)) (r₁ r₂ r : Dict Quantity Val) (d₁ d₂ : ℝ),
    RunOf tA wideC 1 tT (wideU 1) (wideU 1) (wθ 2) (fun _ _ => 1) (wideO 2) 0 f₁ ∧
    RunOf tA wideC 1 tT (wideU 2) (wideU 2) (wθ 1) (fun _ _ => 1) (wideO 1) 0 f₂ ∧
    ((rows f₁ "dynamics").filterMap (dynOf 0))[1]? = some r₁ ∧
    ((rows f₂ "dynamics").filterMap (dynOf 0))[1]? = some r₂ ∧
    ((rows f "dynamics").filterMap (dynOf 0))[1]? = some r ∧
    Reports r₁ .msd d₁ ∧ Reports r₂ .msd d₂ ∧ d₁ ≠ d₂ := by
  obtain ⟨f₁, f₂, f, r₁, r₂, r, h₁, h₂, h, g₁, g₂, g, a₁, a₂, a, -⟩ := wide_values
  obtain ⟨r₁', r₂', r', g₁', g₂', g', d₁, d₂, D₁, D₂, H⟩ :=
    C151_alpha_exactly tA wideC rfl (by simp [tA, exMol]) rfl h₁ h₂ h (i := 1) le_rfl
  obtain rfl := Option.some.inj (g₁.symm.trans g₁')
  obtain rfl := Option.some.inj (g₂.symm.trans g₂')
  obtain rfl := Option.some.inj (g.symm.trans g')
  refine ⟨f₁, f₂, f, r₁, r₂, r, d₁, d₂, h₁, h₂, g₁, g₂, g, D₁, D₂, fun hd => ?_⟩
  have := (H _ _ a₁ a₂ a).2 hd
  norm_num at this

end Verif.Pipeline
