import Verif.Rounding.StoreLemmas
/-!
# A molecule whose steps are lost
-/

namespace Verif.Rounding

open Verif.Motion

/-- A square of side 8. -/
def square8 : Cell := ⟨8, 8, 8, 0, 0, 0, true⟩

/-- 1024 steps of length 1, then steps of 2^-16. -/
noncomputable def walk (i : ℕ) : ℝ := if i ≤ 1024 then i else 1024 + ((i : ℝ) - 1024) * 2 ^ (-16 : ℤ)

/-- Its image in the cell. -/
noncomputable def walkImage (i : ℕ) : ℝ := walk i - 8 * ⌊(walk i + 4) / 8⌋

theorem walk_step_low {i : ℕ} (h : i < 1024) : walk (i + 1) = walk i + 1 := by
  unfold walk
  rw [if_pos (by omega), if_pos (by omega)]
  push_cast; ring

theorem walk_step_high {i : ℕ} (h : 1024 ≤ i) : walk (i + 1) = walk i + 2 ^ (-16 : ℤ) := by
  unfold walk
  rw [if_neg (by omega)]
  split
  · obtain rfl : i = 1024 := by omega
    push_cast; ring
  · push_cast; ring

theorem walk_grid (i : ℕ) : OnGrid (2 ^ (-16 : ℤ)) (walk i) := by
  unfold walk
  split
  · exact ⟨i * 2 ^ 16, by push_cast; rw [zpow_neg]; norm_num; ring⟩
  · refine ⟨1024 * 2 ^ 16 + (i - 1024), ?_⟩
    push_cast; rw [zpow_neg]; norm_num; ring

theorem walkImage_grid (i : ℕ) : OnGrid (2 ^ (-16 : ℤ)) (walkImage i) := by
  refine (walk_grid i).sub ⟨⌊(walk i + 4) / 8⌋ * 2 ^ 19, ?_⟩
  push_cast; rw [zpow_neg]; norm_num; ring

theorem walkImage_bound (i : ℕ) : |walkImage i| ≤ 4 := by
  have h0 := Int.floor_le ((walk i + 4) / 8)
  have h1 := Int.lt_floor_add_one ((walk i + 4) / 8)
  unfold walkImage
  rw [le_div_iff₀ (by norm_num)] at h0
  rw [div_lt_iff₀ (by norm_num)] at h1
  rw [abs_le]
  constructor <;> linarith

theorem walk_half (i : ℕ) : square8.WithinHalf (square8.flat ((walk (i + 1), 0, 0) - (walk i, 0, 0))) := by
  by_cases h : i < 1024
  · refine ⟨1 / 8, 0, 0, by rw [abs_lt]; constructor <;> norm_num, by simp, by simp, ?_⟩
    rw [walk_step_low h]
    simp [square8, Cell.flat, Cell.comb]
  · refine ⟨2 ^ (-16 : ℤ) / 8, 0, 0, ?_, by simp, by simp, ?_⟩
    · rw [abs_lt, zpow_neg]; constructor <;> norm_num
    · rw [walk_step_high (by omega)]
      simp [square8, Cell.flat, Cell.comb]

theorem walk_image (i : ℕ) :
    square8.Lattice (square8.flat ((walkImage i, 0, 0) - (walk i, 0, 0))) := by
  refine ⟨-⌊(walk i + 4) / 8⌋, 0, 0, ?_⟩
  simp [square8, Cell.flat, Cell.comb, walkImage]
  ring

/-- What the witness needs of freud: in the square of side 8, steps that are multiples of 2^-16 are
wrapped without error. -/
def ExactOnGrid (wrap : V3 → V3) : Prop :=
  ∀ v : V3, OnGrid3 (2 ^ (-16 : ℤ)) v → Within 8 v → wrap v = square8.box.wrap v

example : ExactOnGrid square8.box.wrap := fun _ _ _ => rfl

/-- The stored positions. -/
noncomputable def walkStored (i : ℕ) (_ : Fin 1) : V3 := (walkImage i, 0, 0)

theorem walkStored_grid (i : ℕ) (m : Fin 1) : OnGrid3 (2 ^ (-16 : ℤ)) (walkStored i m) :=
  ⟨walkImage_grid i, ⟨0, by simp [walkStored]⟩, ⟨0, by simp [walkStored]⟩⟩

theorem walkStored_diff (i : ℕ) (m : Fin 1) : Within 8 (walkStored i m - walkStored (i + 1) m) := by
  refine ⟨?_, by simp [walkStored], by simp [walkStored]⟩
  have h1 := walkImage_bound i
  have h2 := walkImage_bound (i + 1)
  calc |walkImage i - walkImage (i + 1)| ≤ |walkImage i| + |walkImage (i + 1)| := abs_sub _ _
    _ ≤ 8 := by linarith

theorem walkStored_fl (i : ℕ) (m : Fin 1) :
    fl3 (walkStored i m - walkStored (i + 1) m) = walkStored i m - walkStored (i + 1) m := by
  refine fl3_grid (by norm_num) ((walkStored_grid i m).sub (walkStored_grid (i + 1) m)) ?_
  have h8 : (8 : ℝ) ≤ 2 ^ (24 + (-16) : ℤ) := by norm_num
  have h := walkStored_diff i m
  exact ⟨h.1.trans h8, h.2.1.trans h8, h.2.2.trans h8⟩

theorem square8_proper : square8.Proper := by simp [square8, Cell.Proper]

theorem walk_wrap (wrap : V3 → V3) (hw : ExactOnGrid wrap) (i : ℕ) (m : Fin 1) :
    wrap (fl3 (walkStored i m - walkStored (i + 1) m)) = (walk i - walk (i + 1), 0, 0) := by
  rw [walkStored_fl i m, hw _ ((walkStored_grid i m).sub (walkStored_grid (i + 1) m)) (walkStored_diff i m)]
  unfold walkStored
  rw [wrap_step square8 square8_proper _ _ (walk i, 0, 0) (walk (i + 1), 0, 0) (walk_image i)
    (walk_image (i + 1)) (walk_half i)]
  simp [square8, Cell.flat]

/-- The x displacement of the witness stops at 1024. -/
theorem walk_stuck (wrap : V3 → V3) (hw : ExactOnGrid wrap) (j : ℕ) (m : Fin 1) :
    disp32 wrap walkStored (1024 + j) m = (1024, 0, 0) := by
  have hwr := walk_wrap wrap hw
  have flz : float32.fl 0 = 0 := fl_zero float32
  have hlow : ∀ i ≤ 1024, ∀ m, disp32 wrap walkStored i m = (walk i, 0, 0) := by
    intro i
    induction i with
    | zero => intro _ m; simp [disp32, walk]; rfl
    | succ i ih =>
      intro hi m
      rw [disp32, ih (by omega), hwr i m]
      have e : ((walk i, 0, 0) : V3) - (walk i - walk (i + 1), 0, 0) = (walk (i + 1), 0, 0) := by
        simp; rfl
      rw [e]
      refine fl3_grid (e := -13) (by norm_num) ⟨?_, ⟨0, by simp⟩, ⟨0, by simp⟩⟩ ⟨?_, by simp, by simp⟩
      · refine ⟨((i + 1 : ℕ) : ℤ) * 2 ^ 13, ?_⟩
        unfold walk
        rw [if_pos hi]
        push_cast; rw [zpow_neg]; norm_num; ring
      · unfold walk
        rw [if_pos hi, Nat.abs_cast]
        have : ((i + 1 : ℕ) : ℝ) ≤ 1024 := by exact_mod_cast hi
        norm_num at this ⊢
        linarith
  have hhigh : ∀ j m, disp32 wrap walkStored (1024 + j) m = (1024, 0, 0) := by
    intro j
    induction j with
    | zero => intro m; rw [add_zero, hlow 1024 le_rfl m]; simp [walk]
    | succ j ih =>
      intro m
      rw [← add_assoc, disp32, ih, hwr _ m, walk_step_high (by omega)]
      have e : ((1024, 0, 0) : V3) - (walk (1024 + j) - (walk (1024 + j) + 2 ^ (-16 : ℤ)), 0, 0) =
          (1024 - -2 ^ (-16 : ℤ), 0, 0) := by simp; rfl
      rw [e]
      unfold fl3
      simp only [flz]
      rw [fl_absorb float32 (by decide) (k := 10) ⟨1024, 0, by norm_num [float32], by decide, by norm_num⟩
        (by norm_num) (by decide) (by rw [abs_neg, abs_of_pos (zpow_pos (by norm_num) _)]; norm_num [float32])]
  exact hhigh j m

end Verif.Rounding
