import Verif.Rounding.FlLemmas
import Verif.Rounding.StoreSpec
import Verif.Lammps.Props
import Verif.Pipeline.LammpsLemmas
/-!
# What is read from a lammps file in single precision
-/

namespace Verif.Rounding

open Verif.Motion Verif.Lammps Verif.Text

/-- The frame with the numbers as Python's floats. -/
noncomputable def roundText (f : FrameText ℝ) : FrameText ℝ :=
  { f with
    bound := fun a => (((f.bound a).1.1, float64.fl (f.bound a).1.2),
      ((f.bound a).2.1.1, float64.fl (f.bound a).2.1.2), (f.bound a).2.2)
    cell := fun i j => ((f.cell i j).1, float64.fl (f.cell i j).2) }

theorem roundText_valid {float : List Char → Option ℝ} {f : FrameText ℝ} (h : f.Valid float) :
    (roundText f).Valid (fun w => (float w).map float64.fl) :=
  { h with
    bound_float := fun a => by
      have := h.bound_float a
      simp only [roundText, this.1, this.2, Option.map_some, and_self]
    cell_float := fun i j => by simp only [roundText, h.cell_float i j, Option.map_some] }

theorem roundText_write (f : FrameText ℝ) : (roundText f).write = f.write := rfl

/-- What is read from the text of valid frames. -/
theorem parseLammps32_text (float : List Char → Option ℝ) (hfloat : ∀ w, float (w ++ ['\n']) = float w)
    (fs : List (FrameText ℝ)) (hv : ∀ f ∈ fs, f.Valid float) :
    parseLammps32 float (fs.flatMap FrameText.write) =
      (fs.map (fun f => { (roundText f).value with
        box := (roundText f).value.box.map float64.fl
        cols := storeColumns (roundText f).value.cols }), none) := by
  have h := C18_lammps_round_trip (fun w => (float w).map float64.fl)
    (fun w => by simp only [hfloat]) (fs.map roundText) (by
      intro g hg
      obtain ⟨f, hf, rfl⟩ := List.mem_map.1 hg
      exact roundText_valid (hv f hf))
  have e : (fs.map roundText).flatMap FrameText.write = fs.flatMap FrameText.write := by
    rw [List.flatMap_map]; rfl
  rw [e] at h
  unfold parseLammps32
  rw [h]
  simp only [List.map_map, Prod.mk.injEq, and_true]
  rfl

theorem get?_storeColumns (cols : Dict (List Char) (List (Option ℝ))) (k : List Char) :
    Dict.get? (storeColumns cols) k = (Dict.get? cols k).map (List.map (Option.map float32.fl)) := by
  induction cols with
  | nil => rfl
  | cons c cols ih =>
    unfold storeColumns at ih ⊢
    simp only [List.map_cons, Dict.get?]
    split
    · rfl
    · exact ih

/-- The frame read for `f`. -/
noncomputable def readFrame32 (f : FrameText ℝ) : LFrame ℝ :=
  { (roundText f).value with
    box := (roundText f).value.box.map float64.fl
    cols := storeColumns (roundText f).value.cols }

/-- A column of it. -/
theorem readFrame32_column {float : List Char → Option ℝ} {f : FrameText ℝ} (hv : f.Valid float) {j : ℕ}
    {h : List Char} (hj : f.headings[j]? = some h) :
    Dict.get? (readFrame32 f).cols h = some ((List.range f.numAtoms).map (fun i =>
      some (float32.fl (float64.fl (f.cell i j).2)))) := by
  have hlt : j < f.headings.length := by
    by_contra hc
    rw [List.getElem?_eq_none (by omega)] at hj
    exact absurd hj (by simp)
  have hget : Dict.get? (roundText f).value.cols h =
      some ((List.range f.numAtoms).map (fun i => some (float64.fl (f.cell i j).2))) := by
    apply Dict.get?_of_mem (roundText f).value.cols (by rw [Pipeline.value_keys]; exact hv.heading_nodup)
      (h, (List.range f.numAtoms).map (fun i => some (float64.fl (f.cell i j).2)))
    refine List.mem_map.2 ⟨j, List.mem_range.2 hlt, ?_⟩
    have : (roundText f).headings.getD j [] = h := by
      rw [List.getD_eq_getElem?_getD]; show (f.headings[j]?).getD [] = h; rw [hj]; rfl
    rw [this]; rfl
  show Dict.get? (storeColumns _) h = _
  rw [get?_storeColumns, hget]
  simp only [Option.map_some, List.map_map]
  rfl

theorem double_error (x : ℝ) :
    |float32.fl (float64.fl x) - x| ≤ (2 ^ (-24 : ℤ) + 2 ^ (-52 : ℤ)) * |x| + 2 ^ (-149 : ℤ) := by
  have h1 := fl_rel float64 x
  have h2 := fl_rel float32 (float64.fl x)
  rw [show -((float64.digits : ℕ) : ℤ) = -53 from rfl, show float64.emin - 1 = -1075 from rfl] at h1
  rw [show -((float32.digits : ℕ) : ℤ) = -24 from rfl, show float32.emin - 1 = -150 from rfl] at h2
  have h3 : |float64.fl x| ≤ |float64.fl x - x| + |x| := by
    have := abs_add_le (float64.fl x - x) x
    rwa [sub_add_cancel] at this
  have h4 : |float32.fl (float64.fl x) - x| ≤
      |float32.fl (float64.fl x) - float64.fl x| + |float64.fl x - x| := by
    have := abs_add_le (float32.fl (float64.fl x) - float64.fl x) (float64.fl x - x)
    rwa [sub_add_sub_cancel] at this
  have hx := abs_nonneg x
  have p1 : (2 : ℝ) ^ (-1075 : ℤ) ≤ 2 ^ (-151 : ℤ) := two_zpow_le (by norm_num)
  have e1 : (2 : ℝ) ^ (-151 : ℤ) = 2 ^ (-149 : ℤ) / 4 := by
    rw [show (-151 : ℤ) = -149 - 2 by norm_num, zpow_sub₀ (by norm_num)]; norm_num
  have e2 : (2 : ℝ) ^ (-150 : ℤ) = 2 ^ (-149 : ℤ) / 2 := by
    rw [show (-150 : ℤ) = -149 - 1 by norm_num, zpow_sub₀ (by norm_num)]; norm_num
  have hη : (0 : ℝ) < 2 ^ (-149 : ℤ) := zpow_pos (by norm_num) _
  rw [e2] at h2
  rw [e1] at p1
  generalize (2 : ℝ) ^ (-149 : ℤ) = η at *
  generalize (2 : ℝ) ^ (-1075 : ℤ) = ζ at *
  have n24 : (2 : ℝ) ^ (-24 : ℤ) = 1 / 16777216 := by norm_num
  have n53 : (2 : ℝ) ^ (-53 : ℤ) = 1 / 9007199254740992 := by norm_num
  have n52 : (2 : ℝ) ^ (-52 : ℤ) = 2 / 9007199254740992 := by norm_num
  rw [n24] at h2
  rw [n53] at h1
  rw [n24, n52]
  nlinarith

/-- The rounded difference of two rounded numbers. -/
theorem difference_error (lo hi : ℝ) :
    |float32.fl (float64.fl (float64.fl hi - float64.fl lo)) - (hi - lo)| ≤
      (2 ^ (-24 : ℤ) + 2 ^ (-52 : ℤ)) * |hi - lo| + 2 ^ (-52 : ℤ) * (|hi| + |lo|) + 2 ^ (-148 : ℤ) := by
  have h1 := fl_rel float64 lo
  have h2 := fl_rel float64 hi
  have h3 := double_error (float64.fl hi - float64.fl lo)
  rw [show -((float64.digits : ℕ) : ℤ) = -53 from rfl, show float64.emin - 1 = -1075 from rfl] at h1 h2
  set a := float64.fl hi
  set b := float64.fl lo
  have hd : |(a - b) - (hi - lo)| ≤ |a - hi| + |b - lo| := by
    rw [show (a - b) - (hi - lo) = (a - hi) - (b - lo) by ring]; exact abs_sub _ _
  have h4 : |a - b| ≤ |(a - b) - (hi - lo)| + |hi - lo| := by
    have := abs_add_le ((a - b) - (hi - lo)) (hi - lo)
    rwa [sub_add_cancel] at this
  have h5 : |float32.fl (float64.fl (a - b)) - (hi - lo)| ≤
      |float32.fl (float64.fl (a - b)) - (a - b)| + |(a - b) - (hi - lo)| := by
    have := abs_add_le (float32.fl (float64.fl (a - b)) - (a - b)) ((a - b) - (hi - lo))
    rwa [sub_add_sub_cancel] at this
  have p1 : (2 : ℝ) ^ (-1075 : ℤ) ≤ 2 ^ (-151 : ℤ) := two_zpow_le (by norm_num)
  have e1 : (2 : ℝ) ^ (-151 : ℤ) = 2 ^ (-149 : ℤ) / 4 := by
    rw [show (-151 : ℤ) = -149 - 2 by norm_num, zpow_sub₀ (by norm_num)]; norm_num
  have e2 : (2 : ℝ) ^ (-148 : ℤ) = 2 ^ (-149 : ℤ) * 2 := by
    rw [show (-148 : ℤ) = -149 + 1 by norm_num, zpow_add₀ (by norm_num)]; norm_num
  have hη : (0 : ℝ) < 2 ^ (-149 : ℤ) := zpow_pos (by norm_num) _
  rw [e1] at p1
  rw [e2]
  generalize (2 : ℝ) ^ (-149 : ℤ) = η at *
  generalize (2 : ℝ) ^ (-1075 : ℤ) = ζ at *
  have n24 : (2 : ℝ) ^ (-24 : ℤ) = 1 / 16777216 := by norm_num
  have n53 : (2 : ℝ) ^ (-53 : ℤ) = 1 / 9007199254740992 := by norm_num
  have n52 : (2 : ℝ) ^ (-52 : ℤ) = 2 / 9007199254740992 := by norm_num
  rw [n24, n52] at h3
  rw [n53] at h1 h2
  rw [n24, n52]
  have := abs_nonneg lo
  have := abs_nonneg hi
  have := abs_nonneg (hi - lo)
  have := abs_nonneg ((a - b) - (hi - lo))
  nlinarith

/-- Whole numbers up to 2^24 are kept. -/
theorem double_whole (m : ℤ) (hm : |m| ≤ 2 ^ 24) : float32.fl (float64.fl m) = m := by
  have h64 : float64.Number (m : ℝ) := ⟨m, 0, hm.trans (by norm_num [float64]), by decide, by simp⟩
  have h32 : float32.Number (m : ℝ) := ⟨m, 0, hm, by decide, by simp⟩
  rw [fl_exact float64 (by decide) h64, fl_exact float32 (by decide) h32]

/-- The first whole number that is not. -/
theorem double_next : float32.fl (float64.fl ((2 : ℝ) ^ 24 + 1)) = 2 ^ 24 := by
  have h64 : float64.Number ((2 : ℝ) ^ 24 + 1) :=
    ⟨2 ^ 24 + 1, 0, by norm_num [float64], by decide, by push_cast; norm_num⟩
  rw [fl_exact float64 (by decide) h64]
  have hlog : Int.log 2 |(2 : ℝ) ^ 24 + 1| = 24 := by
    rw [abs_of_pos (by norm_num)]
    have h1 : (24 : ℤ) ≤ Int.log 2 ((2 : ℝ) ^ 24 + 1) :=
      (Int.zpow_le_iff_le_log (b := 2) (by norm_num) (by norm_num)).1 (by norm_num)
    have h2 : Int.log 2 ((2 : ℝ) ^ 24 + 1) < 25 :=
      (Int.lt_zpow_iff_log_lt (b := 2) (by norm_num) (by norm_num)).1 (by norm_num)
    omega
  have hexp : float32.exp ((2 : ℝ) ^ 24 + 1) = 1 := by
    unfold Format.exp
    rw [hlog]; rfl
  unfold Format.fl
  rw [hexp, roundEven_eq (n := 2 ^ 23)]
  · norm_num
  · norm_num [abs_le]
  · intro _; norm_num

end Verif.Rounding
