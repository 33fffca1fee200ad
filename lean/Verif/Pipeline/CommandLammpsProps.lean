import Verif.Pipeline.CommandProps
import Verif.Pipeline.CommandLammpsLemmas
/-!
# C167: `comp-dynamics` on a lammps trajectory
-/

namespace Verif.Pipeline

open Verif.Motion Verif.Dynamics Verif.Relax Verif.Gsd Verif.Process Verif.Cache Verif.Names Verif.Lammps

/-- **C167, names.**  The name `SimulationParams.filename` makes with its extension replaced by `lammpstrj`
is that of a lammps trajectory with the same temperature and pressure. -/
theorem C167_named (float : List Char → Option ℝ) (hf : ∀ s q, DecimalText s q → float s = some (q : ℝ))
    (p : Params) (pre : Option (List Char)) (hpre : KnownPrefix pre) (hP : 0 ≤ p.pressure)
    (hT : 0 ≤ p.temperature) (hsg : ∀ sg ∈ p.spaceGroup, SpaceGroupName sg) (stem : List Char)
    (hstem : p.filename pre = stem ++ ".gsd".toList) :
    suffix (stem ++ ".lammpstrj".toList) = ".lammpstrj".toList ∧
      ∃ v, fromFilename (stem ++ ".lammpstrj".toList) = .ok v ∧
      ∃ r s : ℚ, RoundedTo2 p.temperature r ∧ RoundedTo2 p.pressure s ∧
        nameVars float v = .ok (some (r : ℝ), some (s : ℝ)) := by
  have hs : stem ++ ".lammpstrj".toList =
      namedPath p.output (pre.toList ++ p.molecule.str :: p.pieces) "lammpstrj".toList := by
    rw [filename_eq] at hstem
    have h1 : stem = p.output ++ '/' :: dashed (pre.toList ++ p.molecule.str :: p.pieces) := by
      apply List.append_cancel_right (bs := ".gsd".toList)
      rw [← hstem]
      unfold namedPath
      simp
    rw [h1]
    unfold namedPath
    simp
  rw [hs]
  obtain ⟨h1, v, h2, h3, h4⟩ := named_vars p pre hpre hP hT hsg (ext := "lammpstrj".toList)
    ⟨by decide, by decide, by decide⟩
  obtain ⟨r, hr, hrt⟩ := fmt2_text p.temperature hT
  obtain ⟨s, hs, hst⟩ := fmt2_text p.pressure hP
  refine ⟨h1, v, h2, r, s, hr, hs, ?_⟩
  simp only [nameVars, nameVar, h3, h4, hf _ _ hrt, hf _ _ hst]

/-- **C167, rows.**  The command on the text of a lammps trajectory, whatever the order of lines and columns
in each frame, followed by frames beyond the limit if there are any, and an output file without dynamics: it
returns, and the table of dynamics has exactly one row per frame, each of keyframe 0 with the temperature and
pressure of the name, the time since the first frame and the averages of the true displacements. -/
theorem C167_rows_partial {N : ℕ} (hN : 10 ≤ N) (L : Lib) (hfloat : ∀ w, L.float (w ++ ['\n']) = L.float w)
    (g : Cli.Globals ℝ) (c : Cli.Command) (hm : g.molecule = none) (ho : g.output = none)
    (hr : c.molRelaxations = none) (hκ : 0 < g.waveNumber) (hsuf : suffix c.infile = ".lammpstrj".toList)
    {v : Variables} (hv : fromFilename c.infile = .ok v) {T P : Option ℝ} (hvars : nameVars L.float v = .ok (T, P))
    {n : ℕ} {f : ℕ → FrameText ℝ} {jx jy jz : ℕ → ℕ} {u : ℕ → Fin N → V3}
    (hrun : LammpsRun L.float N n f jx jy jz u)
    (hin : ∀ i ≤ n, ∀ m, g.stepsMax = some m → (f i).timestep ≤ m) (more : List (FrameText ℝ))
    (hmore : ∀ h ∈ more, h.Valid L.float)
    (hout : ∀ h ∈ more.head?, ∃ m, g.stepsMax = some m ∧ m < h.timestep)
    (raws : List (Raw PData)) (file : File FRec) (hfile : rows file "dynamics" = []) :
    ∃ file', compDynamicsRun L g c raws (runText f n ++ more.flatMap FrameText.write) file = (file', .ok none) ∧
      (rows file' "dynamics").length = n + 1 ∧
      ∀ i ≤ n, ∃ row, (rows file' "dynamics")[i]? = some (.dyn 0 row (T, P)) ∧
        TrueRow row ((f i).timestep - (f 0).timestep)
          (fun m => ((u i m - u 0 m).1, (u i m - u 0 m).2.1, 0)) (fun _ => 0) := by
  obtain ⟨hd, p0, p1, p2, htri, -⟩ := C91_default_molecule
  obtain ⟨file', h1, h2, h3⟩ := C106_lammps hN (L.args g.waveNumber c.scatteringFunction) (T, P)
    (by rw [show (L.args g.waveNumber c.scatteringFunction).mol = trimerMol from rfl, hd])
    (by rw [show (L.args g.waveNumber c.scatteringFunction).mol = trimerMol from rfl, htri]; simp)
    rfl hκ rfl L.float hfloat L.junk hrun g.stepsMax hin more hmore hout file
  have hrows := lammps_rows _ _ _ _ _ _ h1 hfile
  refine ⟨file', ?_, ?_, ?_⟩
  · rw [C164_options L g c raws _ file hm ho hr hv, if_neg (by rw [hsuf]; decide), if_pos hsuf, hvars]
    exact h1
  · rw [hrows, List.length_map, h2]
  · intro i hi
    obtain ⟨row, h4, h5⟩ := h3 i hi
    refine ⟨row, ?_, h5⟩
    rw [hrows, List.getElem?_map, h4]
    rfl

/-- **C167, options without effect.**  For a lammps trajectory the command does the same for all values of
`--keyframe-interval`, `--keyframe-max`, `--linear-steps` and with or without `--linear-dynamics`. -/
theorem C167_no_effect (L : Lib) (g g' : Cli.Globals ℝ) (c c' : Cli.Command) (hm : g.molecule = none)
    (ho : g.output = none) (hr : c.molRelaxations = none) (hm' : g'.molecule = none) (ho' : g'.output = none)
    (hr' : c'.molRelaxations = none) (hw : g.waveNumber = g'.waveNumber) (hs : g.stepsMax = g'.stepsMax)
    (hsc : c.scatteringFunction = c'.scatteringFunction) (hin : c.infile = c'.infile)
    (hsuf : suffix c.infile = ".lammpstrj".toList) (raws raws' : List (Raw PData)) (text : List Char)
    (file : File FRec) : compDynamicsRun L g c raws text file = compDynamicsRun L g' c' raws' text file := by
  cases hv : fromFilename c.infile with
  | error e =>
    obtain ⟨args, h1, -⟩ := Cli.C72_arguments_partial g c hm ho
    obtain ⟨args', h1', -⟩ := Cli.C72_arguments_partial g' c' hm' ho'
    simp only [compDynamicsRun, h1, h1', processArgs, ← hin, hv]
  | ok v =>
    have hgsd : ¬ suffix c.infile = ".gsd".toList := by rw [hsuf]; decide
    rw [C164_options L g c raws text file hm ho hr hv,
      C164_options L g' c' raws' text file hm' ho' hr' (hin ▸ hv), ← hin, if_neg hgsd, if_neg hgsd, hw, hs, hsc]

/-- The full property: with `--linear-dynamics` and an interval, the frame of a lammps trajectory at the first
multiple of the interval begins keyframe 1, as it does for a gsd file. -/
def LammpsKeyframes : Prop :=
  ∀ (L : Lib) (g : Cli.Globals ℝ) (c : Cli.Command) (n : ℕ) (f : ℕ → FrameText ℝ) (jx jy jz : ℕ → ℕ)
    (u : ℕ → Fin 10 → V3), (∀ w, L.float (w ++ ['\n']) = L.float w) → g.molecule = none → g.output = none →
    c.molRelaxations = none → 0 < g.waveNumber → suffix c.infile = ".lammpstrj".toList →
    c.linearDynamics = true → g.stepsMax = none → 1 ≤ g.keyframeInterval → 2 ≤ g.keyframeMax →
    LammpsRun L.float 10 n f jx jy jz u → (f 0).timestep = 0 → (∃ i ≤ n, (f i).timestep = g.keyframeInterval) →
    ∀ file' o, compDynamicsRun L g c [] (runText f n) [] = (file', .ok o) →
      ∃ d v, Rec.dyn 1 d v ∈ rows file' "dynamics"

/-- A library that reads whole numbers. -/
noncomputable def intLib : Lib := ⟨Classical.choose exists_sorts, fun _ _ => .error .valueError, intFloat, 0⟩

/-- Keyframes every three steps. -/
noncomputable def lamG : Cli.Globals ℝ := { keyframeInterval := 3, waveNumber := 2 }

/-- A lammps trajectory at pressure 13 and temperature 2. -/
def lamC : Cli.Command :=
  { linearDynamics := true, infile := "d/dump-Trimer-P13-T2.lammpstrj".toList, outfile := "out.h5".toList }

theorem lam_suffix : suffix lamC.infile = ".lammpstrj".toList := by decide

theorem lam_name : fromFilename lamC.infile = .ok ⟨some "2".toList, some "13".toList, none, none⟩ := by decide

theorem lam_vars : nameVars intLib.float ⟨some "2".toList, some "13".toList, none, none⟩ =
    .ok (some ((2 : ℕ) : ℝ), some ((13 : ℕ) : ℝ)) := by
  have h2 : "2".toList = Lammps.showNat 2 := by simp [Lammps.showNat]
  have h13 : "13".toList = Lammps.showNat 13 := by simp [Lammps.showNat]
  rw [h2, h13]
  simp only [nameVars, nameVar, intLib, intFloat_showNat]

/-- Six frames: one row for each, all of keyframe 0 at the pressure and temperature of the name, although the
frames 1 to 5 are at multiples of the interval. -/
theorem lam_rows : ∃ file', compDynamicsRun intLib lamG lamC [] (runText lText 5) [] = (file', .ok none) ∧
    (rows file' "dynamics").length = 6 ∧
    ∀ i ≤ 5, ∃ row, (rows file' "dynamics")[i]? = some (.dyn 0 row (some ((2 : ℕ) : ℝ), some ((13 : ℕ) : ℝ))) ∧
      TrueRow row ((lText i).timestep - (lText 0).timestep)
        (fun m => ((lU i m - lU 0 m).1, (lU i m - lU 0 m).2.1, 0)) (fun _ => 0) := by
  have := C167_rows_partial (N := 10) (by norm_num) intLib intFloat_nl lamG lamC rfl rfl rfl
    (by norm_num [lamG]) lam_suffix lam_name lam_vars (l_run 5) (by intro i _ m h; simp [lamG] at h) []
    (by simp) (by simp) [] [] rfl
  rwa [List.flatMap_nil, List.append_nil] at this

theorem C167_refuted : ¬ LammpsKeyframes := by
  intro h
  obtain ⟨file', h1, h2, h3⟩ := lam_rows
  obtain ⟨d, v, h4⟩ := h intLib lamG lamC 5 lText _ _ _ lU intFloat_nl rfl rfl rfl (by norm_num [lamG])
    lam_suffix rfl rfl (by norm_num [lamG]) (by norm_num [lamG]) (l_run 5) rfl ⟨1, by norm_num, rfl⟩ file' none h1
  obtain ⟨i, hi, h5⟩ := List.mem_iff_getElem.1 h4
  obtain ⟨row, h6, -⟩ := h3 i (by omega)
  rw [List.getElem?_eq_getElem hi, h5] at h6
  cases h6

/-- The name of the parameters used for C164, with the extension of lammps. -/
example : ∃ stem, exampleParams.filename (some "dump".toList) = stem ++ ".gsd".toList ∧
    suffix (stem ++ ".lammpstrj".toList) = ".lammpstrj".toList := by
  refine ⟨exampleParams.output ++ '/' :: dashed ("dump".toList :: exampleParams.molecule.str :: exampleParams.pieces),
    ?_, ?_⟩
  · rw [filename_eq]
    unfold namedPath
    simp
  · refine (C167_named cmdLib.float cmdLib_reads exampleParams (some "dump".toList) (Or.inr (Or.inl rfl))
      (by norm_num [exampleParams]) (by norm_num [exampleParams]) cmd_group _ ?_).1
    rw [filename_eq]
    unfold namedPath
    simp

/-- Other options for keyframes do not change anything. -/
example (text : List Char) : compDynamicsRun intLib lamG lamC [] text [] =
    compDynamicsRun intLib { lamG with keyframeInterval := 100, keyframeMax := 1, linearSteps := 7 }
      { lamC with linearDynamics := false } [] text [] :=
  C167_no_effect intLib _ _ _ _ rfl rfl rfl rfl rfl rfl rfl rfl rfl rfl lam_suffix [] [] text []

end Verif.Pipeline
