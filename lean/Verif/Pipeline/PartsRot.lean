import Verif.Pipeline.PartsExact
/-!
# C151: the non-Gaussian parameter of the rotations of a system made of two parts, exactly
-/

namespace Verif.Pipeline

open Verif.Motion Verif.Dynamics Verif.Relax Verif.Gsd Verif.Process Verif.Cache

variable {N N₁ N₂ : ℕ} {ν ι : Type} [DecidableEq ι]

/-- **C151, when equal parameters are kept.**  If both parts report the same non-Gaussian parameter of rotations, the whole reports it
as well exactly when the parts also report the same mean squared rotation. -/
theorem C151_alpha_rot_exactly (a : Args) (c : Cell)
    (hdim : decide (a.mol.dimensions = 2) = c.is2D) (hmol : a.mol.positions ≠ []) (hdef : a.relaxations = none)
    {n : ℕ} {t t₁ t₂ : ℕ → ℤ} {u₁ s₁ : ℕ → Fin N₁ → V3} {θ₁ σ₁ : ℕ → Fin N₁ → ℝ}
    {o₁ : ℕ → Option (Fin N₁ → Quat)} {u₂ s₂ : ℕ → Fin N₂ → V3} {θ₂ σ₂ : ℕ → Fin N₂ → ℝ}
    {o₂ : ℕ → Option (Fin N₂ → Quat)} {k₁ k₂ k : ι}
    {f₁ f₂ f : File (Rec ι (Dict Quantity Val) (Dict String ℤ) ν)}
    (h₁ : RunOf a c n t₁ u₁ s₁ θ₁ σ₁ o₁ k₁ f₁) (h₂ : RunOf a c n t₂ u₂ s₂ θ₂ σ₂ o₂ k₂ f₂)
    (h : RunOf a c n t (joined u₁ u₂) (joined s₁ s₂) (joined θ₁ θ₂) (joined σ₁ σ₂) (joinedO o₁ o₂) k f)
    {i : ℕ} (hi : i ≤ n) :
    ∃ r₁ r₂ r, ((rows f₁ "dynamics").filterMap (dynOf k₁))[i]? = some r₁ ∧
      ((rows f₂ "dynamics").filterMap (dynOf k₂))[i]? = some r₂ ∧
      ((rows f "dynamics").filterMap (dynOf k))[i]? = some r ∧
      ∃ d₁ d₂ : ℝ, Reports r₁ .msr d₁ ∧ Reports r₂ .msr d₂ ∧
        ∀ x y, Reports r₁ .alpha_rot x → Reports r₂ .alpha_rot x → Reports r .alpha_rot y → (y = x ↔ d₁ = d₂) := by
  have p₁ : (0 : ℝ) < N₁ := by have := h₁.many; exact_mod_cast (by omega : 0 < N₁)
  have p₂ : (0 : ℝ) < N₂ := by have := h₂.many; exact_mod_cast (by omega : 0 < N₂)
  obtain ⟨r₁, r₂, r', g₁, g₂, g', -, -, d₁, d₂, -, -, D₁, D₂, -, A, -⟩ := C151_ratios_exactly a c hdim hmol hdef h₁ h₂ h hi
  obtain ⟨r₁', g₁', T₁, R₁, -⟩ := h₁.row hdim hmol hdef hi
  obtain rfl := Option.some.inj (g₁.symm.trans g₁')
  obtain ⟨r₂', g₂', T₂, R₂, -⟩ := h₂.row hdim hmol hdef hi
  obtain rfl := Option.some.inj (g₂.symm.trans g₂')
  refine ⟨r₁, r₂, r', g₁, g₂, g', d₁, d₂, D₁, D₂, fun x y e₁ e₂ e => ?_⟩
  have key := A x x y e₁ e₂ e
  have nn : ∀ {M : ℕ} (f : Fin M → ℝ), 0 ≤ avg (fun m => f m ^ 2) := fun f =>
    div_nonneg (Finset.sum_nonneg fun m _ => sq_nonneg _) (Nat.cast_nonneg _)
  have pos : ∀ {M : ℕ} {row : Dict Quantity Val} {f : Fin M → V3} {ψ : Fin M → ℝ} {d : ℝ}, TrueRatios row f ψ →
      Reports row .msr (avg fun m => ψ m ^ 2) → Reports row .msr d → Reports row .alpha_rot x → 0 < d ∧ 1 + x ≠ 0 := by
    intro M row f ψ d hR hT hd hα
    have E := Option.some.inj (hR.alpha_rot.symm.trans hα)
    have Ed := Option.some.inj (hT.symm.trans hd)
    simp only [Val.num.injEq, Option.some.injEq] at E Ed
    obtain ⟨hn, hb⟩ := excess_some E
    refine ⟨lt_of_le_of_ne (Ed ▸ nn ψ) ?_, fun h0 => hn ?_⟩
    · rintro rfl
      rw [Ed] at hn
      simp at hn
    · rw [h0, zero_mul, avg, div_eq_zero_iff] at hb
      rcases hb with hb | hb
      · rw [Finset.sum_eq_zero_iff_of_nonneg (fun m _ => by positivity)] at hb
        have : ∀ m, ψ m = 0 := fun m => pow_eq_zero_iff (by norm_num : 4 ≠ 0) |>.1 (hb m (Finset.mem_univ m))
        simp [avg, this]
      · simp [avg, hb]
  obtain ⟨q₁, hx'⟩ := pos R₁ T₁.msr D₁ e₁
  have q₂ := (pos R₂ T₂.msr D₂ e₂).1
  constructor
  · rintro rfl
    have h0 : (1 + y) * (N₁ * N₂ * ((d₁ - d₂) * (d₁ - d₂))) = 0 := by linear_combination -key
    have h1 := (mul_eq_zero.1 h0).resolve_left hx'
    have h2 := (mul_eq_zero.1 h1).resolve_left (by positivity)
    have h3 := mul_self_eq_zero.1 h2
    linarith
  · rintro rfl
    have hne : ((N₁ * d₁ + N₂ * d₁) * (N₁ * d₁ + N₂ * d₁) : ℝ) ≠ 0 := by positivity
    have : 1 + y = 1 + x := mul_right_cancel₀ hne (by linear_combination key)
    linarith

/-- The hypotheses are met by the runs of two parts that turn by different angles. -/
example : ∃ f₁ f₂ f : File (Rec ℕ (Dict Quantity Val) (Dict String ℤ) Unit),
    RunOf tA wideC 1 tT (wideU 1) (wideU 1) (wθ 2) (fun _ _ => 1) (wideO 2) 0 f₁ ∧
    RunOf tA wideC 1 tT (wideU 2) (wideU 2) (wθ 1) (fun _ _ => 1) (wideO 1) 0 f₂ ∧
    RunOf tA wideC 1 tT (joined (wideU 1) (wideU 2)) (joined (wideU 1) (wideU 2)) (joined (wθ 2) (wθ 1))
      (joined (fun _ _ => 1) (fun _ _ => 1)) (joinedO (wideO 2) (wideO 1)) 0 f := by
  obtain ⟨f₁, f₂, f, -, -, -, h₁, h₂, h, -⟩ := wide_values
  exact ⟨f₁, f₂, f, h₁, h₂, h⟩

end Verif.Pipeline
