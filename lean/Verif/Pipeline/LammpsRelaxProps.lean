import Verif.Pipeline.LammpsRelaxLemmas
import Verif.Pipeline.ChainExample
/-!
# C168: `comp-dynamics` on a lammps trajectory followed by `comp-relaxations`
-/

namespace Verif.Pipeline

open Verif.Motion Verif.Dynamics Verif.Relax Verif.Gsd Verif.Process Verif.Cache Verif.Names Verif.Lammps
  Verif.Tables

variable {N : ℕ}

/-- **C168, times of molecules.**  `comp-dynamics` on a lammps trajectory writes, for keyframe 0 and the
temperature and pressure of the name, the true times at which the atoms have diffused; the times of turning are all
2^32 - 1. -/
theorem C168_times_partial (hN : 10 ≤ N) (hN' : N < 2 ^ 32) (L : Lib)
    (hfloat : ∀ w, L.float (w ++ ['\n']) = L.float w) (g : Cli.Globals ℝ) (c : Cli.Command)
    (hm : g.molecule = none) (ho : g.output = none) (hr : c.molRelaxations = none) (hκ : 0 < g.waveNumber)
    (hsuf : suffix c.infile = ".lammpstrj".toList) {v : Variables} (hv : fromFilename c.infile = .ok v)
    {T P : ℝ} (hvars : nameVars L.float v = .ok (some T, some P)) (hT : T ≠ 2 ^ 32 - 1) (hP : P ≠ 2 ^ 32 - 1)
    {n : ℕ} {f : ℕ → FrameText ℝ} {jx jy jz : ℕ → ℕ} {u : ℕ → Fin N → V3}
    (hrun : LammpsRun L.float N n f jx jy jz u) (hlater : ∀ i, 1 ≤ i → i ≤ n → (f 0).timestep < (f i).timestep)
    (hin : ∀ i ≤ n, ∀ m, g.stepsMax = some m → (f i).timestep ≤ m) (more : List (FrameText ℝ))
    (hmore : ∀ h ∈ more, h.Valid L.float)
    (hout : ∀ h ∈ more.head?, ∃ m, g.stepsMax = some m ∧ m < h.timestep)
    (raws : List (Raw PData)) {file file' : File FRec} {out : Option (List FRec)}
    (hcmd : compDynamicsRun L g c raws (runText f n ++ more.flatMap FrameText.write) file = (file', .ok out)) :
    ∃ τ : String → Fin N → ℤ, TrueTimes (textCourse g.waveNumber n f jx jy jz u) τ ∧
      (∀ name ∈ tauNames, times (molTable (rows file' "molecular_relaxations")) (0 : ℕ) T P name =
        List.ofFn (fun m => (τ name m : ℝ))) ∧
      ∀ m, τ "tau_T2" m = 2 ^ 32 - 1 := by
  obtain ⟨hd, p0, p1, p2, htri, -⟩ := C91_default_molecule
  obtain ⟨pairs, h1, h2, h3, h4⟩ := lammps_pairs (T := T) (P := P) hN (L.args g.waveNumber c.scatteringFunction)
    (by rw [show (L.args g.waveNumber c.scatteringFunction).mol = trimerMol from rfl, hd]) hκ rfl L.float hfloat
    L.junk hrun hlater g.stepsMax hin more hmore hout
  rw [C164_options L g c raws _ file hm ho hr hv, if_neg (by rw [hsuf]; decide), if_pos hsuf, hvars, h1] at hcmd
  obtain ⟨τ, t1, -, -, -, t5⟩ := chain_table hN hN'
    (by rw [show (L.args g.waveNumber c.scatteringFunction).mol = trimerMol from rfl, htri]; simp) rfl hT hP hcmd
    (fun _ => textCourse g.waveNumber n f jx jy jz u) (by
      intro k hk
      obtain rfl := h2 k hk
      exact ⟨h4, by norm_num⟩)
  exact ⟨τ 0, t1 0 h3, t5 0 h3, not_turned (t1 0 h3)⟩

/-- **C168, the table.**  `comp-relaxations` on what `comp-dynamics` made of a lammps trajectory: it returns, and
its table has no rows at all, for every trajectory. -/
theorem C168_empty (hN : 10 ≤ N) (hN' : N < 2 ^ 32) (L : Lib)
    (hfloat : ∀ w, L.float (w ++ ['\n']) = L.float w) (g : Cli.Globals ℝ) (c : Cli.Command)
    (hm : g.molecule = none) (ho : g.output = none) (hr : c.molRelaxations = none) (hκ : 0 < g.waveNumber)
    (hsuf : suffix c.infile = ".lammpstrj".toList) {v : Variables} (hv : fromFilename c.infile = .ok v)
    {T P : ℝ} (hvars : nameVars L.float v = .ok (some T, some P)) (hT : T ≠ 2 ^ 32 - 1) (hP : P ≠ 2 ^ 32 - 1)
    {n : ℕ} {f : ℕ → FrameText ℝ} {jx jy jz : ℕ → ℕ} {u : ℕ → Fin N → V3}
    (hrun : LammpsRun L.float N n f jx jy jz u) (hlater : ∀ i, 1 ≤ i → i ≤ n → (f 0).timestep < (f i).timestep)
    (hin : ∀ i ≤ n, ∀ m, g.stepsMax = some m → (f i).timestep ≤ m) (more : List (FrameText ℝ))
    (hmore : ∀ h ∈ more, h.Valid L.float)
    (hout : ∀ h ∈ more.head?, ∃ m, g.stepsMax = some m ∧ m < h.timestep)
    (raws : List (Raw PData)) {file file' : File FRec} {out : Option (List FRec)}
    (hcmd : compDynamicsRun L g c raws (runText f n ++ more.flatMap FrameText.write) file = (file', .ok out))
    (signals : Bool) (fit : List (ℝ × ℝ) → Except PyErr RelaxTime.Fit) (hmean : List ℝ → Except PyErr ℝ)
    (hh : IsHarmonicMean hmean) :
    (Fits fit → (∀ l e, hmean l = .error e → e = .valueError) → compRelaxations signals fit hmean file' = .ok []) ∧
    ∀ res, compRelaxations signals fit hmean file' = .ok res → res = [] := by
  obtain ⟨hd, p0, p1, p2, htri, -⟩ := C91_default_molecule
  obtain ⟨pairs, h1, h2, h3, h4⟩ := lammps_pairs (T := T) (P := P) hN (L.args g.waveNumber c.scatteringFunction)
    (by rw [show (L.args g.waveNumber c.scatteringFunction).mol = trimerMol from rfl, hd]) hκ rfl L.float hfloat
    L.junk hrun hlater g.stepsMax hin more hmore hout
  rw [C164_options L g c raws _ file hm ho hr hv, if_neg (by rw [hsuf]; decide), if_pos hsuf, hvars, h1] at hcmd
  have hmol : (L.args g.waveNumber c.scatteringFunction).mol.positions ≠ [] := by
    rw [show (L.args g.waveNumber c.scatteringFunction).mol = trimerMol from rfl, htri]; simp
  have hC : ∀ k, framesOf k (visitsOf (cenv (L.args g.waveNumber c.scatteringFunction) T P) pairs) ≠ [] →
      (textCourse g.waveNumber n f jx jy jz u).Of (L.args g.waveNumber c.scatteringFunction)
        (framesOf k (visitsOf (cenv (L.args g.waveNumber c.scatteringFunction) T P) pairs)) ∧
      (k : ℝ) ≠ 2 ^ 32 - 1 := by
    intro k hk
    obtain rfl := h2 k hk
    exact ⟨h4, by norm_num⟩
  have hempty : ∀ res, compRelaxations signals fit hmean file' = .ok res → res = [] := by
    intro res hres
    obtain ⟨τ, t1, -, t3, -⟩ := C111_times hN hN' hmol rfl hT hP hcmd
      (fun _ => textCourse g.waveNumber n f jx jy jz u) hC hh hres
    cases res with
    | nil => rfl
    | cons w res =>
      obtain ⟨k, -, -, -, hk, hall⟩ := (t3 w.key.1 w.key.2.1 w.key.2.2).1 (by simp)
      exact absurd (not_turned (t1 k hk) ⟨0, by omega⟩) (hall "tau_T2" (by simp [tauNames]) ⟨0, by omega⟩)
  refine ⟨?_, hempty⟩
  intro hfit he
  obtain ⟨res, hres⟩ := C111_returns hN hN' hmol rfl hT hP hcmd
    (fun _ => textCourse g.waveNumber n f jx jy jz u) hC signals hfit hh he
  rw [hres, hempty res hres]

/-- The full property: when all atoms of a lammps trajectory have diffused, the mean time for it is in the table. -/
def LammpsRelaxations : Prop :=
  ∀ (L : Lib) (g : Cli.Globals ℝ) (c : Cli.Command) (v : Variables) (T P : ℝ) (n : ℕ) (f : ℕ → FrameText ℝ)
    (jx jy jz : ℕ → ℕ) (u : ℕ → Fin 10 → V3), (∀ w, L.float (w ++ ['\n']) = L.float w) → g.molecule = none →
    g.output = none → c.molRelaxations = none → 0 < g.waveNumber → g.stepsMax = none →
    suffix c.infile = ".lammpstrj".toList → fromFilename c.infile = .ok v →
    nameVars L.float v = .ok (some T, some P) → LammpsRun L.float 10 n f jx jy jz u →
    (∀ i, 1 ≤ i → i ≤ n → (f 0).timestep < (f i).timestep) →
    (∀ m, ∃ i ≤ n, 3 * (Real.pi / (2 * g.waveNumber)) < len ((textCell (f 0)).flat (u i m - u 0 m))) →
    ∀ file' o, compDynamicsRun L g c [] (runText f n) [] = (file', .ok o) →
    ∀ signals fit hmean, IsHarmonicMean hmean → ∀ res, compRelaxations signals fit hmean file' = .ok res →
      ∃ w ∈ res, w.key = (0, T, P)

/-- The run of `lMove`, six frames long. -/
theorem lMove_command : ∃ file', compDynamicsRun intLib lamG lamC [] (runText lMove 5) [] = (file', .ok none) := by
  obtain ⟨file', h1, -⟩ := C167_rows_partial (N := 10) (by norm_num) intLib intFloat_nl lamG lamC rfl rfl rfl
    (by norm_num [lamG]) lam_suffix lam_name lam_vars (lMove_run 5) (by intro i _ m h; simp [lamG] at h) []
    (by simp) (by simp) [] [] rfl
  rw [List.flatMap_nil, List.append_nil] at h1
  exact ⟨file', h1⟩

theorem lMove_later : ∀ i, 1 ≤ i → i ≤ 5 → (lMove 0).timestep < (lMove i).timestep := by
  intro i h1 _
  simp only [lMove, lText]
  omega

/-- The example: the table of a trajectory whose atoms have all diffused is empty. -/
theorem lMove_empty : ∃ file', compDynamicsRun intLib lamG lamC [] (runText lMove 5) [] = (file', .ok none) ∧
    compRelaxations true noFit oldHmean file' = .ok [] := by
  obtain ⟨file', h1⟩ := lMove_command
  have h2 := C168_empty (N := 10) (by norm_num) (by norm_num) intLib intFloat_nl lamG lamC rfl rfl rfl
    (by norm_num [lamG]) lam_suffix lam_name lam_vars (by norm_num) (by norm_num) (lMove_run 5) lMove_later
    (by intro i _ m h; simp [lamG] at h) [] (by simp) (by simp) [] (file := []) (file' := file') (out := none)
    (by rw [List.flatMap_nil, List.append_nil]; exact h1) true noFit oldHmean oldHmean_spec
  exact ⟨file', h1, h2.1 (fun _ => Or.inr rfl) oldHmean_error⟩

theorem lMove_far (m : Fin 10) : ∃ i ≤ 5, 3 * (Real.pi / (2 * (2 : ℝ))) <
    len ((textCell (lMove 0)).flat (lMoveU i m - lMoveU 0 m)) := by
  refine ⟨5, le_rfl, ?_⟩
  have h : len ((textCell (lMove 0)).flat (lMoveU 5 m - lMoveU 0 m)) = 5 := by
    simp only [textCell, lMoveU, Cell.flat, len, len2]
    norm_num
    rw [show (25 : ℝ) = 5 ^ 2 by norm_num]
    exact Real.sqrt_sq (by norm_num)
  rw [h]
  linarith [Real.pi_lt_four]

theorem C168_refuted : ¬ LammpsRelaxations := by
  intro h
  obtain ⟨file', h1, h2⟩ := lMove_empty
  obtain ⟨w, hw, -⟩ := h intLib lamG lamC _ _ _ 5 lMove _ _ _ lMoveU intFloat_nl rfl rfl rfl
    (by norm_num [lamG]) rfl lam_suffix lam_name lam_vars (lMove_run 5) lMove_later lMove_far file' none h1 true
    noFit oldHmean oldHmean_spec [] h2
  simp at hw

/-- All atoms of the example diffuse at the same time: the table of the molecules says so. -/
example : ∃ file' τ, compDynamicsRun intLib lamG lamC [] (runText lMove 5) [] = (file', .ok none) ∧
    TrueTimes (textCourse 2 5 lMove (fun _ => 3) (fun _ => 2) (fun _ => 1) lMoveU) τ ∧
    times (molTable (rows file' "molecular_relaxations")) (0 : ℕ) (2 : ℕ) (13 : ℕ) "tau_D" =
      List.ofFn (fun m => (τ "tau_D" m : ℝ)) := by
  obtain ⟨file', h1⟩ := lMove_command
  obtain ⟨τ, h2, h3, -⟩ := C168_times_partial (N := 10) (by norm_num) (by norm_num) intLib intFloat_nl lamG lamC rfl rfl
    rfl (by norm_num [lamG]) lam_suffix lam_name lam_vars (by norm_num) (by norm_num) (lMove_run 5) lMove_later
    (by intro i _ m h; simp [lamG] at h) [] (by simp) (by simp) [] (file := []) (file' := file') (out := none)
    (by rw [List.flatMap_nil, List.append_nil]; exact h1)
  exact ⟨file', τ, h1, h2, h3 "tau_D" (by simp [tauNames])⟩

end Verif.Pipeline
