import Verif.Pipeline.PartsExact
/-!
# C151: the coupling of a system made of two parts, exactly
-/

namespace Verif.Pipeline

open Verif.Motion Verif.Dynamics Verif.Relax Verif.Gsd Verif.Process Verif.Cache

variable {N N₁ N₂ : ℕ} {ν ι : Type} [DecidableEq ι]

/-- **C151, when an equal coupling is kept.**  If both parts report the same coupling of displacements and rotations, the
whole reports it as well exactly when the parts report the same mean squared displacement or the same mean squared
rotation, or the coupling is −1, so that no molecule both moved and turned.  Otherwise the whole is above the parts if the
one that moved further also turned further, and below if not. -/
theorem C151_gamma_exactly (a : Args) (c : Cell)
    (hdim : decide (a.mol.dimensions = 2) = c.is2D) (hmol : a.mol.positions ≠ []) (hdef : a.relaxations = none)
    {n : ℕ} {t t₁ t₂ : ℕ → ℤ} {u₁ s₁ : ℕ → Fin N₁ → V3} {θ₁ σ₁ : ℕ → Fin N₁ → ℝ}
    {o₁ : ℕ → Option (Fin N₁ → Quat)} {u₂ s₂ : ℕ → Fin N₂ → V3} {θ₂ σ₂ : ℕ → Fin N₂ → ℝ}
    {o₂ : ℕ → Option (Fin N₂ → Quat)} {k₁ k₂ k : ι}
    {f₁ f₂ f : File (Rec ι (Dict Quantity Val) (Dict String ℤ) ν)}
    (h₁ : RunOf a c n t₁ u₁ s₁ θ₁ σ₁ o₁ k₁ f₁) (h₂ : RunOf a c n t₂ u₂ s₂ θ₂ σ₂ o₂ k₂ f₂)
    (h : RunOf a c n t (joined u₁ u₂) (joined s₁ s₂) (joined θ₁ θ₂) (joined σ₁ σ₂) (joinedO o₁ o₂) k f)
    {i : ℕ} (hi : i ≤ n) :
    ∃ r₁ r₂ r, ((rows f₁ "dynamics").filterMap (dynOf k₁))[i]? = some r₁ ∧
      ((rows f₂ "dynamics").filterMap (dynOf k₂))[i]? = some r₂ ∧
      ((rows f "dynamics").filterMap (dynOf k))[i]? = some r ∧
      ∃ d₁ d₂ φ₁ φ₂ : ℝ, Reports r₁ .msd d₁ ∧ Reports r₂ .msd d₂ ∧ Reports r₁ .msr φ₁ ∧ Reports r₂ .msr φ₂ ∧
        ∀ x y, Reports r₁ .gamma x → Reports r₂ .gamma x → Reports r .gamma y →
          (y = x ↔ x = -1 ∨ d₁ = d₂ ∨ φ₁ = φ₂) ∧ (x < y ↔ x ≠ -1 ∧ 0 < (d₁ - d₂) * (φ₁ - φ₂)) := by
  have p₁ : (0 : ℝ) < N₁ := by have := h₁.many; exact_mod_cast (by omega : 0 < N₁)
  have p₂ : (0 : ℝ) < N₂ := by have := h₂.many; exact_mod_cast (by omega : 0 < N₂)
  obtain ⟨r₁, r₂, r, g₁, g₂, g, d₁, d₂, φ₁, φ₂, D₁, D₂, F₁, F₂, -, -, A⟩ :=
    C151_ratios_exactly a c hdim hmol hdef h₁ h₂ h hi
  obtain ⟨r₁', g₁', T₁, R₁, -⟩ := h₁.row hdim hmol hdef hi
  obtain rfl := Option.some.inj (g₁.symm.trans g₁')
  obtain ⟨r₂', g₂', T₂, R₂, -⟩ := h₂.row hdim hmol hdef hi
  obtain rfl := Option.some.inj (g₂.symm.trans g₂')
  refine ⟨r₁, r₂, r, g₁, g₂, g, d₁, d₂, φ₁, φ₂, D₁, D₂, F₁, F₂, fun x y e₁ e₂ e => ?_⟩
  have key := A x x y e₁ e₂ e
  have avg0 : ∀ {M : ℕ} (f : Fin M → ℝ), (∀ m, 0 ≤ f m) → 0 ≤ avg f := fun f hf =>
    div_nonneg (Finset.sum_nonneg fun m _ => hf m) (Nat.cast_nonneg _)
  have pos : ∀ {M : ℕ} {row : Dict Quantity Val} {f : Fin M → V3} {ψ : Fin M → ℝ} {d φ : ℝ}, TrueRatios row f ψ →
      Reports row .msd (avg fun m => len2 (f m)) → Reports row .msr (avg fun m => ψ m ^ 2) →
      Reports row .msd d → Reports row .msr φ → Reports row .gamma x → 0 < d ∧ 0 < φ ∧ 0 ≤ 1 + x := by
    intro M row f ψ d φ hR hT hU hd hφ hγ
    have E := Option.some.inj (hR.gamma.symm.trans hγ)
    have Ed := Option.some.inj (hT.symm.trans hd)
    have Eφ := Option.some.inj (hU.symm.trans hφ)
    simp only [Val.num.injEq, len_sq, Option.some.injEq] at E Ed Eφ
    obtain ⟨hn, hb⟩ := excess_some E
    have hd0 : 0 ≤ d := Ed ▸ avg0 _ fun m => len2_nonneg _
    have hφ0 : 0 ≤ φ := Eφ ▸ avg0 _ fun m => sq_nonneg _
    have hb0 : 0 ≤ avg fun m => len2 (f m) * ψ m ^ 2 := avg0 _ fun m => mul_nonneg (len2_nonneg _) (sq_nonneg _)
    rw [Ed, Eφ] at hn hb
    have hd1 : 0 < d := lt_of_le_of_ne hd0 fun h => hn (by rw [← h, zero_mul])
    have hφ1 : 0 < φ := lt_of_le_of_ne hφ0 fun h => hn (by rw [← h, mul_zero])
    refine ⟨hd1, hφ1, ?_⟩
    rw [hb] at hb0
    exact nonneg_of_mul_nonneg_left hb0 (by positivity)
  obtain ⟨q₁, w₁, hx⟩ := pos R₁ T₁.msd T₁.msr D₁ F₁ e₁
  obtain ⟨q₂, w₂, -⟩ := pos R₂ T₂.msd T₂.msr D₂ F₂ e₂
  have hS : (0 : ℝ) < (N₁ * d₁ + N₂ * d₂) * (N₁ * φ₁ + N₂ * φ₂) := by positivity
  have hdiff : (y - x) * ((N₁ * d₁ + N₂ * d₂) * (N₁ * φ₁ + N₂ * φ₂)) =
      N₁ * N₂ * ((1 + x) * ((d₁ - d₂) * (φ₁ - φ₂))) := by linear_combination key
  have hP : (0 : ℝ) < N₁ * N₂ := by positivity
  constructor
  · constructor
    · rintro rfl
      rw [sub_self, zero_mul] at hdiff
      rcases mul_eq_zero.1 ((mul_eq_zero.1 hdiff.symm).resolve_left hP.ne') with h0 | h0
      · left; linarith
      · rcases mul_eq_zero.1 h0 with h0 | h0
        · right; left; linarith
        · right; right; linarith
    · intro hor
      have h0 : (1 + x) * ((d₁ - d₂) * (φ₁ - φ₂)) = 0 := by
        rcases hor with rfl | rfl | rfl <;> ring
      rw [h0, mul_zero] at hdiff
      have := (mul_eq_zero.1 hdiff).resolve_right hS.ne'
      linarith
  · constructor
    · intro hlt
      have h0 : 0 < N₁ * N₂ * ((1 + x) * ((d₁ - d₂) * (φ₁ - φ₂))) := hdiff ▸ mul_pos (by linarith) hS
      have h1 := (mul_pos_iff_of_pos_left hP).1 h0
      have hx1 : 1 + x ≠ 0 := fun h => by rw [h, zero_mul] at h1; exact lt_irrefl _ h1
      exact ⟨fun h => hx1 (by linarith), (mul_pos_iff_of_pos_left (lt_of_le_of_ne hx (Ne.symm hx1))).1 h1⟩
    · rintro ⟨h0, h1⟩
      have hx1 : 0 < 1 + x := lt_of_le_of_ne hx fun h => h0 (by linarith)
      have h2 : 0 < (y - x) * ((N₁ * d₁ + N₂ * d₂) * (N₁ * φ₁ + N₂ * φ₂)) := hdiff ▸ mul_pos hP (mul_pos hx1 h1)
      have := (mul_pos_iff_of_pos_right hS).1 h2
      linarith

/-- One part moves further and turns less than the other: both report 0, and the whole less. -/
example : ∃ (f₁ f₂ f : File (Rec ℕ (Dict Quantity Val) (Dict String ℤ) Unit)) (r₁ r₂ r : Dict Quantity Val)
    (d₁ d₂ φ₁ φ₂ : ℝ),
    RunOf tA wideC 1 tT (wideU 1) (wideU 1) (wθ 2) (fun _ _ => 1) (wideO 2) 0 f₁ ∧
    RunOf tA wideC 1 tT (wideU 2) (wideU 2) (wθ 1) (fun _ _ => 1) (wideO 1) 0 f₂ ∧
    ((rows f₁ "dynamics").filterMap (dynOf 0))[1]? = some r₁ ∧
    ((rows f₂ "dynamics").filterMap (dynOf 0))[1]? = some r₂ ∧
    ((rows f "dynamics").filterMap (dynOf 0))[1]? = some r ∧
    Reports r₁ .msd d₁ ∧ Reports r₂ .msd d₂ ∧ Reports r₁ .msr φ₁ ∧ Reports r₂ .msr φ₂ ∧
    (d₁ - d₂) * (φ₁ - φ₂) < 0 := by
  obtain ⟨f₁, f₂, f, r₁, r₂, r, h₁, h₂, h, g₁, g₂, g, -, -, -, a₁, a₂, a⟩ := wide_values
  obtain ⟨r₁', r₂', r', g₁', g₂', g', d₁, d₂, φ₁, φ₂, D₁, D₂, F₁, F₂, H⟩ :=
    C151_gamma_exactly tA wideC rfl (by simp [tA, exMol]) rfl h₁ h₂ h (i := 1) le_rfl
  obtain rfl := Option.some.inj (g₁.symm.trans g₁')
  obtain rfl := Option.some.inj (g₂.symm.trans g₂')
  obtain rfl := Option.some.inj (g.symm.trans g')
  obtain ⟨H1, H2⟩ := H _ _ a₁ a₂ a
  refine ⟨f₁, f₂, f, r₁, r₂, r, d₁, d₂, φ₁, φ₂, h₁, h₂, g₁, g₂, g, D₁, D₂, F₁, F₂, ?_⟩
  rcases lt_trichotomy ((d₁ - d₂) * (φ₁ - φ₂)) 0 with h0 | h0 | h0
  · exact h0
  · rcases mul_eq_zero.1 h0 with h0 | h0
    · have := H1.2 (Or.inr (Or.inl (by linarith)))
      norm_num at this
    · have := H1.2 (Or.inr (Or.inr (by linarith)))
      norm_num at this
  · have := H2.2 ⟨by norm_num, h0⟩
    norm_num at this

end Verif.Pipeline
