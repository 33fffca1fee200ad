import Verif.Pipeline.PartsLemmas
import Verif.Pipeline.ChainMaxProps
import Verif.Pipeline.Props
/-!
# Runs on a system and its parts, and an example
-/

namespace Verif.Pipeline

open Verif.Motion Verif.Dynamics Verif.Relax Verif.Gsd Verif.Process Verif.Cache

variable {N N₁ N₂ : ℕ} {ν ι : Type} [DecidableEq ι]

/-- A run which wrote `file'`, in which keyframe `k` had the frames `0`, …, `n` of molecules in the cell `c` with true
positions `u` and angles `θ`, stored as `s` and `o`. -/
structure RunOf {N : ℕ} (a : Args) (c : Cell) (n : ℕ) (t : ℕ → ℤ) (u s : ℕ → Fin N → V3) (θ σ : ℕ → Fin N → ℝ)
    (o : ℕ → Option (Fin N → Quat)) (k : ι)
    (file' : File (Rec ι (Dict Quantity Val) (Dict String ℤ) ν)) : Prop where
  many : 10 ≤ N
  follows : Follows c n u s θ σ o
  wave : ∃ κ, 0 < κ ∧ waveOf a.calcWave c.box (List.ofFn (s 0)) a.wave = .ok κ
  ran : ∃ (vars : Except PyErr ν) (pairs : List (List ι × GFrame PData)) (ending : Option PyErr)
    (file : File (Rec ι (Dict Quantity Val) (Dict String ℤ) ν))
    (out : Option (List (Rec ι (Dict Quantity Val) (Dict String ℤ) ν))) (box : ℕ → List ℝ),
    box 0 = c.array ∧ processFile (env a vars) (some (pairs, ending)) true file = (file', .ok out) ∧
    framesOf k (visitsOf (env a vars) pairs) = gframes t box s o n

theorem RunOf.row {a : Args} {c : Cell} {n : ℕ} {t : ℕ → ℤ} {u s : ℕ → Fin N → V3} {θ σ : ℕ → Fin N → ℝ}
    {o : ℕ → Option (Fin N → Quat)} {k : ι} {file' : File (Rec ι (Dict Quantity Val) (Dict String ℤ) ν)}
    (h : RunOf a c n t u s θ σ o k file')
    (hdim : decide (a.mol.dimensions = 2) = c.is2D) (hmol : a.mol.positions ≠ []) (hdef : a.relaxations = none)
    {i : ℕ} (hi : i ≤ n) :
    ∃ row, ((rows file' "dynamics").filterMap (dynOf k))[i]? = some row ∧
      TrueRow row (t i - t 0) (fun m => c.flat (u i m - u 0 m)) (fun m => θ i m - θ 0 m) ∧
      TrueRatios row (fun m => c.flat (u i m - u 0 m)) (fun m => θ i m - θ 0 m) ∧
      (∀ κ', a.wave = some κ' →
        Reports row .com_struct (((Finset.univ.filter (fun m =>
          len (c.flat (u i m - u 0 m)) < Real.pi / (2 * κ'))).card : ℝ) / N) ∧
        (a.scattering = true → Reports row .scattering_function (avg (fun j : Fin 360 =>
          avg (fun m => Real.cos (κ' * (Real.cos (2 * Real.pi * j / 360) *
            (c.flat (u i m - u 0 m)).1 + Real.sin (2 * Real.pi * j / 360) *
            (c.flat (u i m - u 0 m)).2.1))))))) := by
  obtain ⟨κ, hκ, hw⟩ := h.wave
  obtain ⟨vars, pairs, ending, file, out, box, hb, hp, hk⟩ := h.ran
  obtain ⟨r, g, T, W⟩ := (C91_true_motion h.many a vars c hdim hmol hκ hdef hp k hb h.follows hw hk).2 i hi
  obtain ⟨r', g', R⟩ := (C138_ratios h.many a vars c hdim hmol hκ hdef hp k hb h.follows hw hk).2 i hi
  obtain rfl := Option.some.inj (g.symm.trans g')
  exact ⟨r, g, T, R, W⟩

/-- A wide cell. -/
noncomputable def wideC : Cell := ⟨100, 100, 1, 0, 0, 0, true⟩

/-- Positions of molecules all of which move by `v` from frame to frame. -/
def wideU (v : ℝ) : ℕ → Fin 10 → V3 := fun i _ => (v * i, 0, 0)

/-- Angles of molecules all of which turn by `w` from frame to frame. -/
def wθ (w : ℝ) : ℕ → Fin 10 → ℝ := fun i _ => w * i

/-- Stored orientations. -/
noncomputable def wideO (w : ℝ) : ℕ → Option (Fin 10 → Quat) := fun i => some (fun m => (1 : ℝ) • zRot (wθ w i m))

theorem wide_follows {v w : ℝ} (hv : |v| < 50) (hw : |w| < 3) :
    Follows wideC 1 (wideU v) (wideU v) (wθ w) (fun _ _ => 1) (wideO w) := by
  have hpi := Real.pi_gt_three
  refine ⟨by simp [wideC, Cell.Proper], ?_, ?_, fun _ _ => Or.inl rfl, fun i => rfl, ?_⟩
  · intro i _ m
    exact ⟨0, 0, 0, by simp [wideC, Cell.flat, Cell.comb]⟩
  · intro i _ m
    refine ⟨v / 100, 0, 0, ?_, by simp, by simp, ?_⟩
    · rw [abs_div, abs_of_pos (by norm_num : (0 : ℝ) < 100)]
      linarith
    · simp [wideC, wideU, Cell.flat, Cell.comb]
      ring
  · intro i _ m
    simp only [wθ]
    push_cast
    rw [show w * ((i : ℝ) + 1) - w * i = w by ring]
    linarith

/-- A run over two frames of any such trajectory. -/
theorem wide_run {N : ℕ} (hN : 10 ≤ N) {u : ℕ → Fin N → V3} {θ σ : ℕ → Fin N → ℝ}
    {o : ℕ → Option (Fin N → Quat)} (hF : Follows wideC 1 u u θ σ o) :
    ∃ file', RunOf (ν := Unit) tA wideC 1 tT u u θ σ o 0 file' := by
  have hne : ∀ i, (gf tT (fun _ => wideC.array) u o i).data.position ≠ [] := by
    intro i
    simp only [gf, ne_eq, List.ofFn_eq_nil_iff]
    omega
  obtain ⟨file', h⟩ := C91_returns tA () (by simp [tA, exMol]) (by simp [tA]) (by simp [tA])
    ((List.range 2).map fun i => (([0] : List ℕ), gf tT (fun _ => wideC.array) u o i)) [] (by
      intro p hp _
      simp only [List.mem_map] at hp
      obtain ⟨i, -, rfl⟩ := hp
      refine ⟨by simpa [gf] using hN, ?_, wideC.box, 2, ?_, rfl, by norm_num⟩
      · simp only [gf, hF.orient]
        simp
        omega
      · have : (decide (tA.mol.dimensions = 2)) = wideC.is2D := rfl
        rw [this]
        exact createFreudBox_cell wideC) ⟨([0], gf tT (fun _ => wideC.array) u o 0), by simp [List.range_succ], hne 0,
          by simp⟩
  refine ⟨file', hN, hF, ⟨2, by norm_num, rfl⟩, .ok (), _, none, [], none, fun _ => wideC.array, rfl, h, ?_⟩
  have h0 : ∀ i, (env tA (.ok ())).numPos (gf tT (fun _ => wideC.array) u o i) ≠ 0 := by
    intro i
    exact fun h => hne i (List.length_eq_zero_iff.1 h)
  simp [visitsOf, framesOf, gframes, List.range_succ, h0]

/-- The values of that example. -/
theorem wide_values : ∃ (f₁ f₂ f : File (Rec ℕ (Dict Quantity Val) (Dict String ℤ) Unit))
    (r₁ r₂ r : Dict Quantity Val),
    RunOf tA wideC 1 tT (wideU 1) (wideU 1) (wθ 2) (fun _ _ => 1) (wideO 2) 0 f₁ ∧
    RunOf tA wideC 1 tT (wideU 2) (wideU 2) (wθ 1) (fun _ _ => 1) (wideO 1) 0 f₂ ∧
    RunOf tA wideC 1 tT (joined (wideU 1) (wideU 2)) (joined (wideU 1) (wideU 2)) (joined (wθ 2) (wθ 1))
      (joined (fun _ _ => 1) (fun _ _ => 1)) (joinedO (wideO 2) (wideO 1)) 0 f ∧
    ((rows f₁ "dynamics").filterMap (dynOf 0))[1]? = some r₁ ∧
    ((rows f₂ "dynamics").filterMap (dynOf 0))[1]? = some r₂ ∧
    ((rows f "dynamics").filterMap (dynOf 0))[1]? = some r ∧
    Reports r₁ .alpha (-1 / 2) ∧ Reports r₂ .alpha (-1 / 2) ∧ Reports r .alpha (-8 / 25) ∧
    Reports r₁ .gamma 0 ∧ Reports r₂ .gamma 0 ∧ Reports r .gamma (-9 / 25) := by
  have F₁ := wide_follows (v := 1) (w := 2) (by norm_num) (by norm_num)
  have F₂ := wide_follows (v := 2) (w := 1) (by norm_num) (by norm_num)
  obtain ⟨f₁, h₁⟩ := wide_run (by norm_num) F₁
  obtain ⟨f₂, h₂⟩ := wide_run (by norm_num) F₂
  obtain ⟨f, h⟩ := wide_run (by norm_num) (follows_joined F₁ F₂)
  obtain ⟨r₁, g₁, -, R₁, -⟩ := h₁.row rfl (by simp [tA, exMol]) rfl le_rfl
  obtain ⟨r₂, g₂, -, R₂, -⟩ := h₂.row rfl (by simp [tA, exMol]) rfl le_rfl
  obtain ⟨r, g, -, R, -⟩ := h.row rfl (by simp [tA, exMol]) rfl le_rfl
  have l1 : ∀ v : ℝ, 0 ≤ v → len (wideC.flat ((v, 0, 0) : V3)) = v := by
    intro v hv
    simp [len, len2, wideC, Cell.flat, Real.sqrt_mul_self hv]
  have d : ∀ v : ℝ, 0 ≤ v → ∀ m, len (wideC.flat (wideU v 1 m - wideU v 0 m)) = v := by
    intro v hv m
    rw [show wideU v 1 m - wideU v 0 m = ((v, 0, 0) : V3) by simp [wideU, Prod.ext_iff]]
    exact l1 v hv
  have ca : ∀ x : ℝ, avg (fun _ : Fin 10 => x) = x := by
    intro x
    simp [avg]
  refine ⟨f₁, f₂, f, r₁, r₂, r, h₁, h₂, h, g₁, g₂, g, ?_, ?_, ?_, ?_, ?_, ?_⟩
  · rw [Reports, R₁.alpha]
    simp only [d 1 (by norm_num), ca, excess]
    norm_num
  · rw [Reports, R₂.alpha]
    simp only [d 2 (by norm_num), ca, excess]
    norm_num
  · rw [Reports, R.alpha]
    simp only [avg_parts (show 0 < 10 by norm_num) (show 0 < 10 by norm_num), joined, Fin.append_left,
      Fin.append_right, d 1 (by norm_num), d 2 (by norm_num), ca, excess]
    norm_num
  · rw [Reports, R₁.gamma]
    simp only [d 1 (by norm_num), wθ, ca, excess]
    norm_num
  · rw [Reports, R₂.gamma]
    simp only [d 2 (by norm_num), wθ, ca, excess]
    norm_num
  · rw [Reports, R.gamma]
    simp only [avg_parts (show 0 < 10 by norm_num) (show 0 < 10 by norm_num), joined, Fin.append_left,
      Fin.append_right, d 1 (by norm_num), d 2 (by norm_num), wθ, ca, excess]
    norm_num

end Verif.Pipeline
