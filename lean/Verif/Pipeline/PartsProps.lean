import Verif.Pipeline.PartsRun
/-!
# C151: a system made of two parts
-/

namespace Verif.Pipeline

open Verif.Motion Verif.Dynamics Verif.Relax Verif.Gsd Verif.Process Verif.Cache

variable {N N₁ N₂ : ℕ} {ν ι : Type} [DecidableEq ι]

/-- **C151.**  Two systems in the same cell are observed at the same times, and so is the system with the molecules of
both.  In each row, mean displacement, mean squared and fourth-power displacement, mean rotation, mean squared
rotation and both rotational relaxations of the whole are the means of those of the parts, weighted with the numbers
of molecules; with a given wave number the structural relaxation is as well, and so is the scattering function. -/
theorem C151_pooled (a : Args) (c : Cell)
    (hdim : decide (a.mol.dimensions = 2) = c.is2D) (hmol : a.mol.positions ≠ []) (hdef : a.relaxations = none)
    {n : ℕ} {t t₁ t₂ : ℕ → ℤ} {u₁ s₁ : ℕ → Fin N₁ → V3} {θ₁ σ₁ : ℕ → Fin N₁ → ℝ}
    {o₁ : ℕ → Option (Fin N₁ → Quat)} {u₂ s₂ : ℕ → Fin N₂ → V3} {θ₂ σ₂ : ℕ → Fin N₂ → ℝ}
    {o₂ : ℕ → Option (Fin N₂ → Quat)} {k₁ k₂ k : ι}
    {f₁ f₂ f : File (Rec ι (Dict Quantity Val) (Dict String ℤ) ν)}
    (h₁ : RunOf a c n t₁ u₁ s₁ θ₁ σ₁ o₁ k₁ f₁) (h₂ : RunOf a c n t₂ u₂ s₂ θ₂ σ₂ o₂ k₂ f₂)
    (h : RunOf a c n t (joined u₁ u₂) (joined s₁ s₂) (joined θ₁ θ₂) (joined σ₁ σ₂) (joinedO o₁ o₂) k f)
    {i : ℕ} (hi : i ≤ n) :
    ∃ r₁ r₂ r, ((rows f₁ "dynamics").filterMap (dynOf k₁))[i]? = some r₁ ∧
      ((rows f₂ "dynamics").filterMap (dynOf k₂))[i]? = some r₂ ∧
      ((rows f "dynamics").filterMap (dynOf k))[i]? = some r ∧
      (∀ q ∈ [Quantity.mean_displacement, .msd, .mfd, .mean_rotation, .msr, .rot1, .rot2],
        Pooled N₁ N₂ q r₁ r₂ r) ∧
      (a.wave ≠ none → Pooled N₁ N₂ .com_struct r₁ r₂ r ∧
        (a.scattering = true → Pooled N₁ N₂ .scattering_function r₁ r₂ r)) := by
  obtain ⟨r₁, g₁, T₁, -, W₁⟩ := h₁.row hdim hmol hdef hi
  obtain ⟨r₂, g₂, T₂, -, W₂⟩ := h₂.row hdim hmol hdef hi
  obtain ⟨r, g, T, -, W⟩ := h.row hdim hmol hdef hi
  have p₁ : 0 < N₁ := by have := h₁.many; omega
  have p₂ : 0 < N₂ := by have := h₂.many; omega
  refine ⟨r₁, r₂, r, g₁, g₂, g, ?_, ?_⟩
  · intro q hq
    simp only [List.mem_cons, List.not_mem_nil, or_false] at hq
    rcases hq with rfl | rfl | rfl | rfl | rfl | rfl | rfl
    · refine ⟨_, _, T₁.mean_displacement, T₂.mean_displacement, ?_⟩
      simpa [avg_parts p₁ p₂, joined] using T.mean_displacement
    · refine ⟨_, _, T₁.msd, T₂.msd, ?_⟩
      simpa [avg_parts p₁ p₂, joined] using T.msd
    · refine ⟨_, _, T₁.mfd, T₂.mfd, ?_⟩
      simpa [avg_parts p₁ p₂, joined] using T.mfd
    · refine ⟨_, _, T₁.mean_rotation, T₂.mean_rotation, ?_⟩
      simpa [avg_parts p₁ p₂, joined] using T.mean_rotation
    · refine ⟨_, _, T₁.msr, T₂.msr, ?_⟩
      simpa [avg_parts p₁ p₂, joined] using T.msr
    · refine ⟨_, _, T₁.rot1, T₂.rot1, ?_⟩
      simpa [avg_parts p₁ p₂, joined] using T.rot1
    · refine ⟨_, _, T₁.rot2, T₂.rot2, ?_⟩
      simpa [avg_parts p₁ p₂, joined] using T.rot2
  · intro hw
    obtain ⟨κ', hκ'⟩ := Option.ne_none_iff_exists'.1 hw
    refine ⟨⟨_, _, (W₁ κ' hκ').1, (W₂ κ' hκ').1, ?_⟩, fun hs => ⟨_, _, (W₁ κ' hκ').2 hs, (W₂ κ' hκ').2 hs, ?_⟩⟩
    · have := (W κ' hκ').1
      rw [share_avg, avg_parts p₁ p₂] at this
      rw [share_avg, share_avg]
      simpa [joined] using this
    · have := (W κ' hκ').2 hs
      simp only [avg_parts p₁ p₂, avg_weighted] at this
      simpa only [joined, Fin.append_left, Fin.append_right] using this

/-- The full statement for a quantity `q`, that the whole lies between the parts, in a row of runs as in
`C151_pooled`. -/
def BetweenParts (q : Quantity) : Prop :=
  ∀ (a : Args) (c : Cell), decide (a.mol.dimensions = 2) = c.is2D → a.mol.positions ≠ [] → a.relaxations = none →
    ∀ (N₁ N₂ n : ℕ) (t : ℕ → ℤ) (u₁ s₁ : ℕ → Fin N₁ → V3) (θ₁ σ₁ : ℕ → Fin N₁ → ℝ)
      (o₁ : ℕ → Option (Fin N₁ → Quat)) (u₂ s₂ : ℕ → Fin N₂ → V3) (θ₂ σ₂ : ℕ → Fin N₂ → ℝ)
      (o₂ : ℕ → Option (Fin N₂ → Quat)) (f₁ f₂ f : File (Rec ℕ (Dict Quantity Val) (Dict String ℤ) Unit)),
      RunOf a c n t u₁ s₁ θ₁ σ₁ o₁ 0 f₁ → RunOf a c n t u₂ s₂ θ₂ σ₂ o₂ 0 f₂ →
      RunOf a c n t (joined u₁ u₂) (joined s₁ s₂) (joined θ₁ θ₂) (joined σ₁ σ₂) (joinedO o₁ o₂) 0 f →
      ∀ i ≤ n, ∀ r₁ r₂ r, ((rows f₁ "dynamics").filterMap (dynOf 0))[i]? = some r₁ →
        ((rows f₂ "dynamics").filterMap (dynOf 0))[i]? = some r₂ →
        ((rows f "dynamics").filterMap (dynOf 0))[i]? = some r →
        NotBelow q r₁ r₂ r ∧ NotAbove q r₁ r₂ r

/-- **C151, what holds of the non-Gaussian parameters.**  Those of the whole are not less than the lesser ones of the
parts.  The full statement `BetweenParts`, that they are not more than the larger ones either, fails
(`C151_alpha_refuted`); for the coupling of displacements and rotations neither holds of necessity
(`C151_gamma_refuted`). -/
theorem C151_alpha_partial (a : Args) (c : Cell)
    (hdim : decide (a.mol.dimensions = 2) = c.is2D) (hmol : a.mol.positions ≠ []) (hdef : a.relaxations = none)
    {n : ℕ} {t t₁ t₂ : ℕ → ℤ} {u₁ s₁ : ℕ → Fin N₁ → V3} {θ₁ σ₁ : ℕ → Fin N₁ → ℝ}
    {o₁ : ℕ → Option (Fin N₁ → Quat)} {u₂ s₂ : ℕ → Fin N₂ → V3} {θ₂ σ₂ : ℕ → Fin N₂ → ℝ}
    {o₂ : ℕ → Option (Fin N₂ → Quat)} {k₁ k₂ k : ι}
    {f₁ f₂ f : File (Rec ι (Dict Quantity Val) (Dict String ℤ) ν)}
    (h₁ : RunOf a c n t₁ u₁ s₁ θ₁ σ₁ o₁ k₁ f₁) (h₂ : RunOf a c n t₂ u₂ s₂ θ₂ σ₂ o₂ k₂ f₂)
    (h : RunOf a c n t (joined u₁ u₂) (joined s₁ s₂) (joined θ₁ θ₂) (joined σ₁ σ₂) (joinedO o₁ o₂) k f)
    {i : ℕ} (hi : i ≤ n) :
    ∃ r₁ r₂ r, ((rows f₁ "dynamics").filterMap (dynOf k₁))[i]? = some r₁ ∧
      ((rows f₂ "dynamics").filterMap (dynOf k₂))[i]? = some r₂ ∧
      ((rows f "dynamics").filterMap (dynOf k))[i]? = some r ∧
      NotBelow .alpha r₁ r₂ r ∧ NotBelow .alpha_rot r₁ r₂ r := by
  obtain ⟨r₁, g₁, -, R₁, -⟩ := h₁.row hdim hmol hdef hi
  obtain ⟨r₂, g₂, -, R₂, -⟩ := h₂.row hdim hmol hdef hi
  obtain ⟨r, g, -, R, -⟩ := h.row hdim hmol hdef hi
  have p₁ : 0 < N₁ := by have := h₁.many; omega
  have p₂ : 0 < N₂ := by have := h₂.many; omega
  have q₁ : (0 : ℝ) < N₁ := by exact_mod_cast p₁
  have q₂ : (0 : ℝ) < N₂ := by exact_mod_cast p₂
  have nn : ∀ {M : ℕ} (f : Fin M → ℝ), (∀ m, 0 ≤ f m) → 0 ≤ avg f := fun f hf =>
    div_nonneg (Finset.sum_nonneg fun m _ => hf m) (Nat.cast_nonneg _)
  have e4 : ∀ x : ℝ, 0 ≤ x ^ 4 := fun x => by positivity
  refine ⟨r₁, r₂, r, g₁, g₂, g, ?_, ?_⟩
  · intro x₁ x₂ x e₁ e₂ e
    have E₁ := Option.some.inj (R₁.alpha.symm.trans e₁)
    have E₂ := Option.some.inj (R₂.alpha.symm.trans e₂)
    have E := Option.some.inj (R.alpha.symm.trans e)
    simp only [Val.num.injEq] at E₁ E₂ E
    simp only [avg_parts p₁ p₂, joined, Fin.append_left, Fin.append_right] at E
    exact excess_parts two_pos q₁ q₂ (nn _ fun m => sq_nonneg _) (nn _ fun m => sq_nonneg _) E₁ E₂ E
      (nn _ fun m => e4 _) (nn _ fun m => e4 _)
  · intro x₁ x₂ x e₁ e₂ e
    have E₁ := Option.some.inj (R₁.alpha_rot.symm.trans e₁)
    have E₂ := Option.some.inj (R₂.alpha_rot.symm.trans e₂)
    have E := Option.some.inj (R.alpha_rot.symm.trans e)
    simp only [Val.num.injEq] at E₁ E₂ E
    simp only [avg_parts p₁ p₂, joined, Fin.append_left, Fin.append_right] at E
    exact excess_parts three_pos q₁ q₂ (nn _ fun m => sq_nonneg _) (nn _ fun m => sq_nonneg _) E₁ E₂ E
      (nn _ fun m => e4 _) (nn _ fun m => e4 _)

/-- The hypotheses of `C151_pooled` and `C151_alpha_partial` are met: ten molecules move by 1 and turn by 2, ten move by
2 and turn by 1. -/
example : ∃ f₁ f₂ f : File (Rec ℕ (Dict Quantity Val) (Dict String ℤ) Unit),
    RunOf tA wideC 1 tT (wideU 1) (wideU 1) (wθ 2) (fun _ _ => 1) (wideO 2) 0 f₁ ∧
    RunOf tA wideC 1 tT (wideU 2) (wideU 2) (wθ 1) (fun _ _ => 1) (wideO 1) 0 f₂ ∧
    RunOf tA wideC 1 tT (joined (wideU 1) (wideU 2)) (joined (wideU 1) (wideU 2)) (joined (wθ 2) (wθ 1))
      (joined (fun _ _ => 1) (fun _ _ => 1)) (joinedO (wideO 2) (wideO 1)) 0 f := by
  have F₁ := wide_follows (v := 1) (w := 2) (by norm_num) (by norm_num)
  have F₂ := wide_follows (v := 2) (w := 1) (by norm_num) (by norm_num)
  obtain ⟨f₁, h₁⟩ := wide_run (by norm_num) F₁
  obtain ⟨f₂, h₂⟩ := wide_run (by norm_num) F₂
  obtain ⟨f, h⟩ := wide_run (by norm_num) (follows_joined F₁ F₂)
  exact ⟨f₁, f₂, f, h₁, h₂, h⟩

/-- **C151 refuted for the non-Gaussian parameter.**  Both parts have −1/2, the whole −8/25. -/
theorem C151_alpha_refuted : ¬ BetweenParts .alpha := by
  intro H
  obtain ⟨f₁, f₂, f, r₁, r₂, r, h₁, h₂, h, g₁, g₂, g, a₁, a₂, a, -⟩ := wide_values
  have := (H tA wideC rfl (by simp [tA, exMol]) rfl 10 10 1 tT _ _ _ _ _ _ _ _ _ _ f₁ f₂ f h₁ h₂ h 1 le_rfl
    r₁ r₂ r g₁ g₂ g).2 _ _ _ a₁ a₂ a
  norm_num at this

/-- **C151 refuted for the coupling.**  Both parts have 0, the whole −9/25. -/
theorem C151_gamma_refuted : ¬ BetweenParts .gamma := by
  intro H
  obtain ⟨f₁, f₂, f, r₁, r₂, r, h₁, h₂, h, g₁, g₂, g, -, -, -, a₁, a₂, a⟩ := wide_values
  have := (H tA wideC rfl (by simp [tA, exMol]) rfl 10 10 1 tT _ _ _ _ _ _ _ _ _ _ f₁ f₂ f h₁ h₂ h 1 le_rfl
    r₁ r₂ r g₁ g₂ g).1 _ _ _ a₁ a₂ a
  norm_num at this

end Verif.Pipeline
