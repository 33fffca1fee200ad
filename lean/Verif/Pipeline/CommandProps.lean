import Verif.Pipeline.CommandLemmas
import Verif.Pipeline.ReaderProps
import Verif.Pipeline.TwinProps
import Verif.Names.Props
import Verif.Gsd.ErrorSpec
import Verif.Gsd.ErrorLemmas
/-!
# C164: `comp-dynamics` from the command line to the tables
-/

namespace Verif.Pipeline

open Verif.Motion Verif.Dynamics Verif.Relax Verif.Gsd Verif.Process Verif.Cache Verif.Names Verif.StepSize

/-- The arguments of the trackers that the options ask for: a trimer, the wave number and the flag. -/
noncomputable def Lib.args (L : Lib) (κ : ℝ) (scattering : Bool) : Args :=
  ⟨L.argsort, L.calcWave, trimerMol, some κ, scattering, none⟩

/-- **C164, options.**  Without `--molecule`, `--output` and `--mol-relaxations` the command is `process_file`
on the input file, with the reader of its suffix, the options given and the temperature and pressure of its
name; without one of the two suffixes it ends in an UnboundLocalError. -/
theorem C164_options (L : Lib) (g : Cli.Globals ℝ) (c : Cli.Command) (raws : List (Raw PData))
    (text : List Char) (file : File FRec) (hm : g.molecule = none) (ho : g.output = none)
    (hr : c.molRelaxations = none) {v : Variables} (hv : fromFilename c.infile = .ok v) :
    compDynamicsRun L g c raws text file =
      if suffix c.infile = ".gsd".toList then
        processGsd (L.args g.waveNumber c.scatteringFunction) (nameVars L.float v) raws g.stepsMax
          (if c.linearDynamics then none else some g.linearSteps) g.keyframeInterval g.keyframeMax true file
      else if suffix c.infile = ".lammpstrj".toList then
        processLammps (L.args g.waveNumber c.scatteringFunction) (nameVars L.float v) L.float L.junk text
          g.stepsMax true file
      else (file, .error .unboundLocalError) := by
  obtain ⟨args, h1, -, -, h4, -, -, h7, h8, h9, -, -, -, h13⟩ := Cli.C72_arguments_partial g c hm ho
  obtain ⟨args', h1', h2⟩ := Cli.C72_reader g c hm ho raws
  obtain rfl : args = args' := by rw [h1] at h1'; exact Except.ok.inj h1'
  have henv : commandEnv L args v = env (L.args g.waveNumber c.scatteringFunction) (nameVars L.float v) := by
    unfold commandEnv argsOf Lib.args
    rw [h4, h7, h13 hr]
    rfl
  have hmax : (Dict.get? args "steps_max").bind Cli.Val.toOptInt = some g.stepsMax := by
    cases hs : g.stepsMax with
    | none => rw [h9 hs]; rfl
    | some n => rw [h8 n hs]; rfl
  unfold compDynamicsRun
  simp only [h1, processArgs, hv, henv, commandPairs, h2, hmax, Option.map_some]
  split
  · unfold processGsd readGsd
    cases c.linearDynamics <;> rfl
  · split <;> rfl

/-- **C164, names.**  A file named by `SimulationParams.filename` is read as a gsd file, and its rows have the
temperature and pressure of the parameters, rounded to two decimals. -/
theorem C164_named_partial (float : List Char → Option ℝ) (hf : ∀ s q, DecimalText s q → float s = some (q : ℝ))
    (p : Params) (pre : Option (List Char)) (hpre : KnownPrefix pre) (hP : 0 ≤ p.pressure)
    (hT : 0 ≤ p.temperature) (hsg : ∀ sg ∈ p.spaceGroup, SpaceGroupName sg) :
    suffix (p.filename pre) = ".gsd".toList ∧ ∃ v, fromFilename (p.filename pre) = .ok v ∧
      ∃ r s : ℚ, RoundedTo2 p.temperature r ∧ RoundedTo2 p.pressure s ∧
        nameVars float v = .ok (some (r : ℝ), some (s : ℝ)) := by
  obtain ⟨h1, v, h2, h3, h4⟩ := filename_vars p pre hpre hP hT hsg
  obtain ⟨r, hr, hrt⟩ := fmt2_text p.temperature hT
  obtain ⟨s, hs, hst⟩ := fmt2_text p.pressure hP
  refine ⟨h1, v, h2, r, s, hr, hs, ?_⟩
  simp only [nameVars, nameVar, h3, h4, hf _ _ hrt, hf _ _ hst]

open Classical in
/-- **C164, rows with exponential steps.**  The command on a file named by `SimulationParams.filename`: when
it returns, every row has the temperature and pressure of the parameters, and those of keyframe `k` report the
true motion in the readable frames on its own series of steps, one row per frame. -/
theorem C164_exponential_partial {N : ℕ} (hN : 10 ≤ N) (L : Lib)
    (hf : ∀ s q, DecimalText s q → L.float s = some (q : ℝ)) (g : Cli.Globals ℝ) (c : Cli.Command)
    (hm : g.molecule = none) (ho : g.output = none) (hr : c.molRelaxations = none)
    (hlin : c.linearDynamics = false) (hκ : 0 < g.waveNumber) (hi : 1 ≤ g.keyframeInterval)
    (hl : 1 ≤ g.linearSteps) {M : Int} (hM : g.stepsMax = some M) (hM0 : 0 ≤ M)
    (p : Params) (pre : Option (List Char)) (hpre : KnownPrefix pre) (hP : 0 ≤ p.pressure)
    (hT : 0 ≤ p.temperature) (hsg : ∀ sg ∈ p.spaceGroup, SpaceGroupName sg) (hin : c.infile = p.filename pre)
    {raws : List (Raw PData)} (hc : OnlyCorrupt raws) (hinc : Increasing (readable raws))
    (hser : (∀ f ∈ readable raws, f.timestep ≤ M → f.timestep ∈
        (seriesList M g.linearSteps g.keyframeInterval g.keyframeMax).map Prod.fst) ∨
      NoStepMissing (readable raws)
        ((seriesList M g.linearSteps g.keyframeInterval g.keyframeMax).map Prod.fst))
    {text : List Char} {file' : File FRec} {out : Option (List FRec)}
    (hrun : compDynamicsRun L g c raws text [] = (file', .ok out)) :
    ∃ r s : ℚ, RoundedTo2 p.temperature r ∧ RoundedTo2 p.pressure s ∧
      (∀ x ∈ rows file' "dynamics", ∃ k d, x = .dyn k d (some (r : ℝ), some (s : ℝ))) ∧
      ∀ (k : ℕ) (C : Cell) (n : ℕ) (t : ℕ → ℤ) (box : ℕ → List ℝ) (u st : ℕ → Fin N → V3)
        (θ σ : ℕ → Fin N → ℝ) (o : ℕ → Option (Fin N → Quat)),
        C.is2D = true → box 0 = C.array → Follows C n u st θ σ o →
        (readable raws).filter (fun f => decide (f.data.position ≠ [] ∧
          ∃ s0, firstStep (seriesList M g.linearSteps g.keyframeInterval g.keyframeMax) k = some s0 ∧
            s0 ≤ f.timestep ∧ Wants M g.linearSteps s0 f.timestep)) = gframes t box st o n →
        ((rows file' "dynamics").filterMap (dynOf k)).length = n + 1 ∧
        ∀ i ≤ n, ∃ row, ((rows file' "dynamics").filterMap (dynOf k))[i]? = some row ∧
          TrueRow row (t i - t 0) (fun m => C.flat (u i m - u 0 m)) (fun m => θ i m - θ 0 m) ∧
          Reports row .com_struct (((Finset.univ.filter (fun m =>
            len (C.flat (u i m - u 0 m)) < Real.pi / (2 * g.waveNumber))).card : ℝ) / N) := by
  obtain ⟨hsuf, v, hv, r, s, hr', hs', hvars⟩ := C164_named_partial L.float hf p pre hpre hP hT hsg
  rw [← hin] at hsuf hv
  rw [C164_options L g c raws text [] hm ho hr hv, if_pos hsuf, hlin, hM, hvars] at hrun
  simp only [Bool.false_eq_true, if_false] at hrun
  obtain ⟨hd, p0, p1, p2, htri, -⟩ := C91_default_molecule
  refine ⟨r, s, hr', hs', ?_, ?_⟩
  · exact rows_vars _ _ hrun rfl
  · intro k C n t box u st θ σ o h2d hbox hF hsel
    have hsel' := (C96_exponential_frames (L.args g.waveNumber c.scatteringFunction) (.ok (some (r : ℝ), some (s : ℝ)))
      raws M g.keyframeInterval g.keyframeMax g.linearSteps hc hinc hM0 hi hl hser k).trans hsel
    obtain ⟨h1, h2⟩ := C91_true_motion hN (L.args g.waveNumber c.scatteringFunction) _ C
      (by rw [show (L.args g.waveNumber c.scatteringFunction).mol = trimerMol from rfl, hd, h2d]; rfl)
      (by rw [show (L.args g.waveNumber c.scatteringFunction).mol = trimerMol from rfl, htri]; simp)
      hκ rfl hrun k hbox hF rfl hsel'
    refine ⟨h1, fun i hi => ?_⟩
    obtain ⟨row, g1, g2, g3⟩ := h2 i hi
    exact ⟨row, g1, g2, (g3 _ rfl).1⟩

/-- **C164, rows with linear steps.**  The same with `--linear-dynamics`, where keyframe `k` has the frames
from the `k`-th multiple of the interval on, counted from 0. -/
theorem C164_linear_partial {N : ℕ} (hN : 10 ≤ N) (L : Lib)
    (hf : ∀ s q, DecimalText s q → L.float s = some (q : ℝ)) (g : Cli.Globals ℝ) (c : Cli.Command)
    (hm : g.molecule = none) (ho : g.output = none) (hr : c.molRelaxations = none)
    (hlin : c.linearDynamics = true) (hκ : 0 < g.waveNumber) (hi : 1 ≤ g.keyframeInterval)
    (p : Params) (pre : Option (List Char)) (hpre : KnownPrefix pre) (hP : 0 ≤ p.pressure)
    (hT : 0 ≤ p.temperature) (hsg : ∀ sg ∈ p.spaceGroup, SpaceGroupName sg) (hin : c.infile = p.filename pre)
    {raws : List (Raw PData)} (hc : OnlyCorrupt raws) {text : List Char} {file' : File FRec}
    {out : Option (List FRec)} (hrun : compDynamicsRun L g c raws text [] = (file', .ok out)) :
    ∃ r s : ℚ, RoundedTo2 p.temperature r ∧ RoundedTo2 p.pressure s ∧
      (∀ x ∈ rows file' "dynamics", ∃ k d, x = .dyn k d (some (r : ℝ), some (s : ℝ))) ∧
      ∀ (k : ℕ) (before post : List (GFrame PData)) (f : GFrame PData) (C : Cell) (n : ℕ) (t : ℕ → ℤ)
        (box : ℕ → List ℝ) (u st : ℕ → Fin N → V3) (θ σ : ℕ → Fin N → ℝ) (o : ℕ → Option (Fin N → Quat)),
        (k : Int) ≤ g.keyframeMax →
        (readable raws).takeWhile (fun f => !g.stepsMax.any (fun m => decide (m < f.timestep))) =
          before ++ f :: post →
        g.keyframeInterval ∣ f.timestep →
        (before.filter (fun h => decide (g.keyframeInterval ∣ h.timestep))).length = k →
        C.is2D = true → box 0 = C.array → Follows C n u st θ σ o →
        (f :: post).filter (fun h => decide (h.data.position ≠ [])) = gframes t box st o n →
        ((rows file' "dynamics").filterMap (dynOf k)).length = n + 1 ∧
        ∀ i ≤ n, ∃ row, ((rows file' "dynamics").filterMap (dynOf k))[i]? = some row ∧
          TrueRow row (t i - t 0) (fun m => C.flat (u i m - u 0 m)) (fun m => θ i m - θ 0 m) := by
  obtain ⟨hsuf, v, hv, r, s, hr', hs', hvars⟩ := C164_named_partial L.float hf p pre hpre hP hT hsg
  rw [← hin] at hsuf hv
  rw [C164_options L g c raws text [] hm ho hr hv, if_pos hsuf, hlin, hvars] at hrun
  simp only [if_true] at hrun
  obtain ⟨hd, p0, p1, p2, htri, -⟩ := C91_default_molecule
  refine ⟨r, s, hr', hs', ?_, ?_⟩
  · exact rows_vars _ _ hrun rfl
  · intro k before post f C n t box u st θ σ o hk htw hdiv hcount h2d hbox hF hsel
    have hsel' := (C96_linear_frames (L.args g.waveNumber c.scatteringFunction)
      (.ok (some (r : ℝ), some (s : ℝ))) raws g.stepsMax g.keyframeInterval g.keyframeMax hc hi k hk before post f
      htw hdiv hcount).trans hsel
    obtain ⟨h1, h2⟩ := C91_true_motion hN (L.args g.waveNumber c.scatteringFunction) _ C
      (by rw [show (L.args g.waveNumber c.scatteringFunction).mol = trimerMol from rfl, hd, h2d]; rfl)
      (by rw [show (L.args g.waveNumber c.scatteringFunction).mol = trimerMol from rfl, htri]; simp)
      hκ rfl hrun k hbox hF rfl hsel'
    refine ⟨h1, fun i hi => ?_⟩
    obtain ⟨row, g1, g2, -⟩ := h2 i hi
    exact ⟨row, g1, g2⟩

/-- **C164, the command returns.**  With exponential steps and a limit, on a file named by
`SimulationParams.filename` whose first readable frame is that of step 0, the command returns if every readable
frame that has molecules has at least ten of them and a box, and the first one does. -/
theorem C164_returns_partial (L : Lib) (hf : ∀ s q, DecimalText s q → L.float s = some (q : ℝ))
    (g : Cli.Globals ℝ) (c : Cli.Command) (hm : g.molecule = none) (ho : g.output = none)
    (hr : c.molRelaxations = none) (hlin : c.linearDynamics = false) (hκ : 0 < g.waveNumber)
    (hi : 1 ≤ g.keyframeInterval) (hl : 1 ≤ g.linearSteps) {M : Int} (hM : g.stepsMax = some M) (hM0 : 0 ≤ M)
    (p : Params) (pre : Option (List Char)) (hpre : KnownPrefix pre) (hP : 0 ≤ p.pressure)
    (hT : 0 ≤ p.temperature) (hsg : ∀ sg ∈ p.spaceGroup, SpaceGroupName sg) (hin : c.infile = p.filename pre)
    {raws : List (Raw PData)} (hc : OnlyCorrupt raws) {f0 : GFrame PData} {fs : List (GFrame PData)}
    (h0 : readable raws = f0 :: fs) (ht0 : f0.timestep = 0) (hp0 : f0.data.position ≠ [])
    (hframes : ∀ f ∈ readable raws, f.data.position ≠ [] → 10 ≤ f.data.position.length ∧
      f.data.orientation ≠ some [] ∧ ∃ b, createFreudBox f.data.box true = .ok b)
    (text : List Char) (file : File FRec) :
    ∃ file', compDynamicsRun L g c raws text file = (file', .ok none) := by
  obtain ⟨hsuf, v, hv, r, s, -, -, hvars⟩ := C164_named_partial L.float hf p pre hpre hP hT hsg
  rw [← hin] at hsuf hv
  rw [C164_options L g c raws text file hm ho hr hv, if_pos hsuf, hlin, hM, hvars]
  simp only [Bool.false_eq_true, if_false]
  obtain ⟨hd, p0, p1, p2, htri, -⟩ := C91_default_molecule
  have hsound := C11_exponential_sound raws (some M) g.keyframeInterval g.keyframeMax g.linearSteps M rfl hM0 hi hl
  have hout : readGsd raws (some M) (some g.linearSteps) g.keyframeInterval g.keyframeMax =
      expReader M none (readable raws) (seriesList M g.linearSteps g.keyframeInterval g.keyframeMax) := by
    simp only [readGsd, gsdExponential, stepsToRead, iterTrajectory_eq raws hc]
  have hend : (readGsd raws (some M) (some g.linearSteps) g.keyframeInterval g.keyframeMax).2 = none := by
    rw [hout]
    exact (exp_end M (readable raws)).1 _
  unfold processGsd
  obtain ⟨pairs, ending, hpe⟩ : ∃ x y, readGsd raws (some M) (some g.linearSteps) g.keyframeInterval
    g.keyframeMax = (x, y) := ⟨_, _, rfl⟩
  rw [hpe] at hsound hend hout ⊢
  simp only at hsound hend
  subst hend
  -- the first frame is handed out, for keyframe 0
  obtain ⟨-, -, -, hhead, -⟩ := C05_series_runs_from_zero_to_total M g.linearSteps g.keyframeInterval
    g.keyframeMax hM0 hl hi
  have hfirst : ∃ idx ss, seriesList M g.linearSteps g.keyframeInterval g.keyframeMax = (0, idx) :: ss := by
    cases hS : seriesList M g.linearSteps g.keyframeInterval g.keyframeMax with
    | nil => rw [hS] at hhead; simp at hhead
    | cons x ss =>
      obtain ⟨x1, x2⟩ := x
      rw [hS] at hhead
      simp only [List.map_cons, List.head?_cons, Option.some.injEq] at hhead
      subst hhead
      exact ⟨x2, ss, rfl⟩
  obtain ⟨idx, ss, hS⟩ := hfirst
  have h0mem : (0 : ℕ) ∈ idx := by
    refine ((C07_get_index_exact M g.linearSteps g.keyframeInterval g.keyframeMax hM0 hl hi 0 idx
      (by rw [hS]; exact List.mem_cons_self)).2 0).2 ⟨0, ?_, le_rfl, ?_⟩
    · rw [C08_keyframes_at_multiples _ _ _ _ hM0 hl hi, hS, List.map_cons, List.filter_cons,
        if_pos (by simp), List.getElem?_take_of_lt (by omega)]
      rfl
    · by_cases hM' : M = 0
      · exact Or.inl hM'.symm
      · exact Or.inr ⟨le_rfl, by omega, 0, 0, by simp; omega, by simp, Or.inl rfl⟩
  have hpairs : (idx, f0) ∈ pairs := by
    have : pairs = (expReader M none (f0 :: fs) ((0, idx) :: ss)).1 := by
      rw [← h0, ← hS, ← hout]
    rw [this, expReader, if_neg (by simp [ht0]), if_neg (by simp [ht0])]
    simp only [emit]
    rw [if_neg (by omega), if_pos ht0.symm]
    exact List.mem_cons_self
  refine C91_returns (L.args g.waveNumber c.scatteringFunction) _
    (by rw [show (L.args g.waveNumber c.scatteringFunction).mol = trimerMol from rfl, htri]; simp)
    (by intro defs h; simp [Lib.args] at h) (by simp [Lib.args]; exact hκ.ne') pairs file ?_
    ⟨_, hpairs, hp0, fun h => by
      change idx = [] at h
      rw [h] at h0mem; simp at h0mem⟩
  intro q hq hne
  obtain ⟨a1, a2, b, a3⟩ := hframes q.2 (hsound.1.subset (List.mem_map.2 ⟨q, hq, rfl⟩)) hne
  refine ⟨a1, a2, b, g.waveNumber, ?_, rfl, hκ⟩
  rw [show (L.args g.waveNumber c.scatteringFunction).mol = trimerMol from rfl, hd]
  exact a3

/-- **C164, the command returns with linear steps.**  The same with `--linear-dynamics`: here the first readable
frame has to be at a multiple of the interval, and not beyond the limit if there is one. -/
theorem C164_returns_linear_partial (L : Lib) (hf : ∀ s q, DecimalText s q → L.float s = some (q : ℝ))
    (g : Cli.Globals ℝ) (c : Cli.Command) (hm : g.molecule = none) (ho : g.output = none)
    (hr : c.molRelaxations = none) (hlin : c.linearDynamics = true) (hκ : 0 < g.waveNumber)
    (hi : 1 ≤ g.keyframeInterval) (hk : 0 ≤ g.keyframeMax)
    (p : Params) (pre : Option (List Char)) (hpre : KnownPrefix pre) (hP : 0 ≤ p.pressure)
    (hT : 0 ≤ p.temperature) (hsg : ∀ sg ∈ p.spaceGroup, SpaceGroupName sg) (hin : c.infile = p.filename pre)
    {raws : List (Raw PData)} (hc : OnlyCorrupt raws) {f0 : GFrame PData} {fs : List (GFrame PData)}
    (h0 : readable raws = f0 :: fs) (ht0 : g.keyframeInterval ∣ f0.timestep)
    (hmax : ∀ M, g.stepsMax = some M → f0.timestep ≤ M) (hp0 : f0.data.position ≠ [])
    (hframes : ∀ f ∈ readable raws, f.data.position ≠ [] → 10 ≤ f.data.position.length ∧
      f.data.orientation ≠ some [] ∧ ∃ b, createFreudBox f.data.box true = .ok b)
    (text : List Char) (file : File FRec) :
    ∃ file', compDynamicsRun L g c raws text file = (file', .ok none) := by
  obtain ⟨hsuf, v, hv, r, s, -, -, hvars⟩ := C164_named_partial L.float hf p pre hpre hP hT hsg
  rw [← hin] at hsuf hv
  rw [C164_options L g c raws text file hm ho hr hv, if_pos hsuf, hlin, hvars]
  simp only [if_true]
  obtain ⟨hd, p0, p1, p2, htri, -⟩ := C91_default_molecule
  have hout : readGsd raws g.stepsMax none g.keyframeInterval g.keyframeMax =
      linearReader g.stepsMax g.keyframeInterval g.keyframeMax none (readable raws) [] := by
    simp only [readGsd, gsdLinear, iterTrajectory_eq raws hc]
  have hend : (readGsd raws g.stepsMax none g.keyframeInterval g.keyframeMax).2 = none := by
    rw [hout, (linear_end g.stepsMax g.keyframeInterval g.keyframeMax (by omega) none (readable raws) []).2]
    split <;> rfl
  have hsub : ∀ q ∈ (readGsd raws g.stepsMax none g.keyframeInterval g.keyframeMax).1, q.2 ∈ readable raws := by
    intro q hq
    rw [hout] at hq
    have h1 := List.mem_map_of_mem (f := Prod.snd) hq
    rw [linear_frames g.stepsMax g.keyframeInterval g.keyframeMax (by omega)] at h1
    exact (List.takeWhile_prefix _).subset h1
  have hpairs : ([0], f0) ∈ (readGsd raws g.stepsMax none g.keyframeInterval g.keyframeMax).1 := by
    have hz : f0.timestep % g.keyframeInterval = 0 := Int.emod_eq_zero_of_dvd ht0
    have hany : g.stepsMax.any (fun m => decide (f0.timestep > m)) = false := by
      cases hs : g.stepsMax with
      | none => rfl
      | some M => simpa using hmax M hs
    rw [hout, h0, linearReader, if_neg (by omega)]
    simp [hany, updateIndex, hz, hk]
  unfold processGsd
  obtain ⟨pairs, ending, hpe⟩ : ∃ x y, readGsd raws g.stepsMax none g.keyframeInterval g.keyframeMax = (x, y) :=
    ⟨_, _, rfl⟩
  rw [hpe] at hend hsub hpairs ⊢
  simp only at hend hsub hpairs
  subst hend
  refine C91_returns (L.args g.waveNumber c.scatteringFunction) _
    (by rw [show (L.args g.waveNumber c.scatteringFunction).mol = trimerMol from rfl, htri]; simp)
    (by intro defs h; simp [Lib.args] at h) (by simp [Lib.args]; exact hκ.ne') pairs file ?_
    ⟨_, hpairs, hp0, by simp⟩
  intro q hq hne
  obtain ⟨a1, a2, b, a3⟩ := hframes q.2 (hsub q hq) hne
  refine ⟨a1, a2, b, g.waveNumber, ?_, rfl, hκ⟩
  rw [show (L.args g.waveNumber c.scatteringFunction).mol = trimerMol from rfl, hd]
  exact a3

/-- **C164, names that cannot be read.**  If the temperature or the pressure of the name is not the text of a
number, the command does not return, whatever is in the file. -/
theorem C164_bad_name (L : Lib) (g : Cli.Globals ℝ) (c : Cli.Command) (raws : List (Raw PData))
    (text : List Char) (file : File FRec) (hm : g.molecule = none) (ho : g.output = none)
    (hr : c.molRelaxations = none) {v : Variables} (hv : fromFilename c.infile = .ok v)
    (hbad : (∃ s, v.temperature = some s ∧ L.float s = none) ∨ ∃ s, v.pressure = some s ∧ L.float s = none) :
    ∀ file' o, compDynamicsRun L g c raws text file ≠ (file', .ok o) := by
  have hvars : ∃ e, nameVars L.float v = .error e := by
    unfold nameVars
    rcases hbad with ⟨s, h1, h2⟩ | ⟨s, h1, h2⟩
    · exact ⟨.valueError, by simp [nameVar, h1, h2]⟩
    · cases nameVar L.float v.temperature with
      | error e => exact ⟨e, rfl⟩
      | ok t => exact ⟨.valueError, by simp [nameVar, h1, h2]⟩
  obtain ⟨e, he⟩ := hvars
  intro file' o
  rw [C164_options L g c raws text file hm ho hr hv, he]
  have key : ∀ (a : Args) (x : List (List ℕ × GFrame PData) × Option PyErr),
      processFile (env a (.error e)) (some x) true file ≠ (file', .ok o) := by
    intro a x h
    obtain ⟨-, -, -, w, hw, -⟩ := processFile_ok _ x.1 x.2 _ _ _ h
    simp [env] at hw
  split
  · exact key _ _
  · split
    · exact key _ _
    · simp

/-- C164 fails for a space group such as `P2gg`: the name made by `SimulationParams.filename` gives the
pressure `2gg`, which is not a number, and the command does not return, whatever is in the file. -/
theorem C164_refuted :
    ∃ (p : Params) (sg : List Char), 0 ≤ p.pressure ∧ 0 ≤ p.temperature ∧ p.spaceGroup = some sg ∧ Plain sg ∧
      sg ≠ [] ∧ ∀ (L : Lib) (g : Cli.Globals ℝ) (c : Cli.Command) (raws : List (Raw PData)) (text : List Char)
        (file : File FRec), L.float "2gg".toList = none → g.molecule = none → g.output = none →
        c.molRelaxations = none → c.infile = p.filename none →
        ∀ file' o, compDynamicsRun L g c raws text file ≠ (file', .ok o) := by
  refine ⟨{ exampleParams with spaceGroup := some "P2gg".toList, harmonicForce := none }, "P2gg".toList,
    by norm_num [exampleParams], by norm_num [exampleParams], rfl, ⟨by decide, by decide⟩, by decide, ?_⟩
  intro L g c raws text file hf hm ho hr hin
  have hv : fromFilename c.infile =
      .ok ⟨some (fmt2 exampleParams.temperature), some "2gg".toList, none, none⟩ := by
    rw [hin, fromFilename_written _ _ (Or.inl rfl) (by norm_num [exampleParams])
      (by norm_num [exampleParams]) (by
        intro w hw
        simp only [Option.mem_def, Option.some.injEq] at hw
        subst hw
        exact ⟨by decide, by decide⟩)]
    rw [pieces_eq, items_mol]
    rfl
  exact C164_bad_name L g c raws text file hm ho hr hv (Or.inr ⟨_, rfl, hf⟩)

/-- A library that reads decimals, and refuses `2gg`. -/
noncomputable def cmdLib : Lib :=
  ⟨Classical.choose exists_sorts, fun _ _ => .error .valueError,
    fun s => if s = "2gg".toList then none else (readDecimal s).map (fun q => (q : ℝ)), 0⟩

theorem cmdLib_reads : ∀ s q, DecimalText s q → cmdLib.float s = some (q : ℝ) := by
  intro s q h
  have h1 := readDecimal_reads s q h
  have h2 : s ≠ "2gg".toList := by
    rintro rfl
    obtain ⟨ds, a, b, -, -, -, -, h3, -⟩ := h
    have : '.' ∈ "2gg".toList := by rw [h3]; simp
    exact absurd this (by decide)
  change (if s = "2gg".toList then none else _) = _
  rw [if_neg h2, h1]
  rfl

/-- Options: a limit, a small interval, few linear steps. -/
noncomputable def cmdG : Cli.Globals ℝ :=
  { stepsMax := some 6, keyframeInterval := 3, linearSteps := 10, keyframeMax := 500, waveNumber := 2 }

/-- The command line. -/
def cmdC : Cli.Command :=
  { infile := exampleParams.filename (some "dump".toList), outfile := "out.h5".toList }

/-- Times from 0. -/
def cmdT : ℕ → ℤ := fun i => i

/-- A file with all steps from 0 to 6, after a corrupt frame. -/
noncomputable def cmdRaws : List (Raw PData) :=
  .error .runtimeError :: (gframes cmdT (fun _ => tC.array) tS tO 6).map .ok

theorem cmd_readable : readable cmdRaws = gframes cmdT (fun _ => tC.array) tS tO 6 := by
  simp [cmdRaws, readable, List.filterMap_map]

theorem cmd_corrupt : OnlyCorrupt cmdRaws := by
  intro r hr e he
  subst he
  simpa [cmdRaws] using hr

theorem cmd_group : ∀ sg ∈ exampleParams.spaceGroup, SpaceGroupName sg := by
  intro sg h
  obtain rfl : "p2".toList = sg := by simpa [exampleParams] using h
  exact ⟨⟨by decide, by decide⟩, by decide, by decide, by decide, by decide⟩

theorem cmd_returns (text : List Char) (file : File FRec) :
    ∃ file', compDynamicsRun cmdLib cmdG cmdC cmdRaws text file = (file', .ok none) := by
  refine C164_returns_partial cmdLib cmdLib_reads cmdG cmdC rfl rfl rfl rfl (by norm_num [cmdG]) (by decide)
    (by decide) (M := 6) rfl (by decide) exampleParams (some "dump".toList) (Or.inr (Or.inl rfl))
    (by norm_num [exampleParams]) (by norm_num [exampleParams]) cmd_group rfl cmd_corrupt (cmd_readable.trans (by
      rw [gframes, List.range_succ_eq_map, List.map_cons])) rfl (by simp [gf]) ?_ text file
  intro f hf _
  rw [cmd_readable] at hf
  obtain ⟨i, -, rfl⟩ := List.mem_map.1 hf
  exact ⟨by simp [gf], by simp [gf, tO], _, createFreudBox_cell tC⟩

theorem cmd_series : seriesList 6 10 3 500 = [(0, [0]), (1, [0]), (2, [0]), (3, [0, 1]), (4, [0, 1]), (5, [0, 1]),
    (6, [0, 1, 2])] := by
  decide

open Classical in
/-- Seven rows for keyframe 0, the last of them with the motion over six steps. -/
example : ∃ file', compDynamicsRun cmdLib cmdG cmdC cmdRaws [] [] = (file', .ok none) ∧
    ((rows file' "dynamics").filterMap (dynOf 0)).length = 7 ∧
    ∃ row, ((rows file' "dynamics").filterMap (dynOf 0))[6]? = some row ∧
      TrueRow row 6 (fun m : Fin 10 => tC.flat (tU 6 m - tU 0 m)) (fun m => tθ 6 m - tθ 0 m) := by
  obtain ⟨file', h⟩ := cmd_returns [] []
  have hinc : Increasing (readable cmdRaws) := by
    rw [cmd_readable]
    simp [Increasing, gframes, List.range_succ, gf, cmdT]
  have hmem : ∀ f ∈ readable cmdRaws, ∃ i : ℕ, i ≤ 6 ∧ f = gf cmdT (fun _ => tC.array) tS tO i := by
    intro f hf
    rw [cmd_readable] at hf
    obtain ⟨i, hi, rfl⟩ := List.mem_map.1 hf
    exact ⟨i, by simpa using Nat.lt_succ_iff.1 (List.mem_range.1 hi), rfl⟩
  obtain ⟨r, s, -, -, -, h1⟩ := C164_exponential_partial (N := 10) le_rfl cmdLib cmdLib_reads cmdG cmdC rfl rfl rfl rfl
    (by norm_num [cmdG]) (by decide) (by decide) (M := 6) rfl (by decide) exampleParams (some "dump".toList)
    (Or.inr (Or.inl rfl)) (by norm_num [exampleParams]) (by norm_num [exampleParams]) cmd_group rfl cmd_corrupt
    hinc (Or.inl (by
      intro f hf _
      obtain ⟨i, hi, rfl⟩ := hmem f hf
      change (i : ℤ) ∈ (seriesList 6 10 3 500).map Prod.fst
      rw [cmd_series]
      interval_cases i <;> decide)) h
  obtain ⟨h2, h3⟩ := h1 0 tC 6 cmdT (fun _ => tC.array) tU tS tθ tσ tO rfl rfl (t_follows 6) (by
    rw [List.filter_eq_self.2, cmd_readable]
    intro f hf
    obtain ⟨i, hi, rfl⟩ := hmem f hf
    rw [decide_eq_true_iff]
    refine ⟨by simp [gf], 0, ?_, ?_, ?_⟩
    · change firstStep (seriesList 6 10 3 500) 0 = some 0
      rw [cmd_series]
      rfl
    · simp [gf, cmdT]
    · change Wants 6 10 0 (i : ℤ)
      by_cases h6 : i = 6
      · exact Or.inl (by rw [h6]; rfl)
      · exact Or.inr ⟨by omega, by omega, 0, i, by omega, by simp, Or.inl rfl⟩)
  obtain ⟨row, h4, h5, -⟩ := h3 6 le_rfl
  exact ⟨file', h, h2, row, h4, h5⟩

/-- The same file with `--linear-dynamics`: keyframe 1 has the frames from step 3 on. -/
example : ∃ file', compDynamicsRun cmdLib cmdG { cmdC with linearDynamics := true } cmdRaws [] [] = (file', .ok none) ∧
    ((rows file' "dynamics").filterMap (dynOf 1)).length = 4 := by
  obtain ⟨file', h⟩ := C164_returns_linear_partial cmdLib cmdLib_reads cmdG { cmdC with linearDynamics := true }
    rfl rfl rfl rfl (by norm_num [cmdG]) (by decide) (by decide) exampleParams (some "dump".toList)
    (Or.inr (Or.inl rfl)) (by norm_num [exampleParams]) (by norm_num [exampleParams]) cmd_group rfl cmd_corrupt
    (cmd_readable.trans (by rw [gframes, List.range_succ_eq_map, List.map_cons])) (by exact dvd_zero _)
    (by intro M hM; obtain rfl : 6 = M := by simpa [cmdG] using hM
        exact (by decide : (0 : ℤ) ≤ 6)) (by simp [gf]) (by
      intro f hf _
      rw [cmd_readable] at hf
      obtain ⟨i, -, rfl⟩ := List.mem_map.1 hf
      exact ⟨by simp [gf], by simp [gf, tO], _, createFreudBox_cell tC⟩) [] []
  refine ⟨file', h, ?_⟩
  obtain ⟨r, s, -, -, -, h1⟩ := C164_linear_partial (N := 10) le_rfl cmdLib cmdLib_reads cmdG
    { cmdC with linearDynamics := true } rfl rfl rfl rfl (by norm_num [cmdG]) (by decide) exampleParams
    (some "dump".toList) (Or.inr (Or.inl rfl)) (by norm_num [exampleParams]) (by norm_num [exampleParams])
    cmd_group rfl cmd_corrupt h
  have hF : Follows tC 3 (fun i => tU (i + 3)) (fun i => tS (i + 3)) (fun i => tθ (i + 3)) (fun i => tσ (i + 3))
      (fun i => tO (i + 3)) := by
    obtain ⟨a, b, c, d, e, f⟩ := t_follows 6
    exact ⟨a, fun i hi => b (i + 3) (by omega),
      fun i hi m => by simpa [add_right_comm] using c (i + 3) (by omega) m,
      fun i => d (i + 3), fun i => e (i + 3),
      fun i hi m => by simpa [add_right_comm] using f (i + 3) (by omega) m⟩
  exact (h1 1 ((List.range 3).map (gf cmdT (fun _ => tC.array) tS tO))
    ((List.range 3).map (fun i => gf cmdT (fun _ => tC.array) tS tO (i + 4)))
    (gf cmdT (fun _ => tC.array) tS tO 3) tC 3 (fun i => cmdT (i + 3)) (fun _ => tC.array) (fun i => tU (i + 3))
    (fun i => tS (i + 3)) (fun i => tθ (i + 3)) (fun i => tσ (i + 3)) (fun i => tO (i + 3)) (by decide)
    (by rw [cmd_readable]; simp [gframes, List.range_succ, cmdG, gf, cmdT])
    (by simp [cmdG, gf, cmdT]) (by simp [List.range_succ, cmdG, gf, cmdT]) rfl rfl hF
    (by simp [gframes, List.range_succ, gf, cmdT])).1

end Verif.Pipeline
