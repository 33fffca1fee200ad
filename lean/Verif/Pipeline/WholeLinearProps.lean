import Verif.Pipeline.WholeProps
import Verif.Pipeline.WholeLinearLemmas
import Mathlib.Data.List.TakeWhile
/-!
# C165 with linear steps, and with exponential steps up to the last frame
-/

namespace Verif.Pipeline

open Verif.Motion Verif.Dynamics Verif.Relax Verif.Gsd Verif.Process Verif.Cache Verif.Names Verif.StepSize
  Verif.Tables

variable {N : ℕ}

/-- **C165, linear steps.**  The same with `--linear-dynamics`, with a limit or without: keyframe `k` has the
frames from the `k`-th one at a multiple of the interval on. -/
theorem C165_linear_partial (hN : 10 ≤ N) (hN' : N < 2 ^ 32) (L : Lib)
    (hf : ∀ s q, DecimalText s q → L.float s = some (q : ℝ)) (g : Cli.Globals ℝ) (c : Cli.Command)
    (hm : g.molecule = none) (ho : g.output = none) (hr : c.molRelaxations = none)
    (hlin : c.linearDynamics = true) (hκ : 0 < g.waveNumber) (hi : 1 ≤ g.keyframeInterval)
    (hk1 : 0 ≤ g.keyframeMax) (hk2 : g.keyframeMax < 2 ^ 32 - 1)
    (p : Params) (pre : Option (List Char)) (hpre : KnownPrefix pre) (hP : 0 ≤ p.pressure)
    (hT : 0 ≤ p.temperature) (hP' : p.pressure < 2 ^ 32 - 2) (hT' : p.temperature < 2 ^ 32 - 2)
    (hsg : ∀ sg ∈ p.spaceGroup, SpaceGroupName sg) (hin : c.infile = p.filename pre)
    {raws : List (Raw PData)} (hc : OnlyCorrupt raws) (hinc : Increasing (readable raws))
    (C : ℕ → Course N)
    (hC : ∀ k, linearFrames raws g.stepsMax g.keyframeInterval g.keyframeMax k ≠ [] →
      (C k).c.is2D = true ∧ (C k).κ = g.waveNumber ∧ (C k).box 0 = (C k).c.array ∧
      Follows (C k).c (C k).n (C k).u (C k).s (C k).θ (C k).σ (C k).o ∧
      linearFrames raws g.stepsMax g.keyframeInterval g.keyframeMax k =
        gframes (C k).t (C k).box (C k).s (C k).o (C k).n)
    {text : List Char} {file file' : File FRec} {out : Option (List FRec)}
    (hrun : compDynamicsRun L g c raws text file = (file', .ok out))
    {signals : Bool} {fit : List (ℝ × ℝ) → Except PyErr RelaxTime.Fit} {hmean : List ℝ → Except PyErr ℝ}
    (hh : IsHarmonicMean hmean) :
    ∃ r s : ℚ, RoundedTo2 p.temperature r ∧ RoundedTo2 p.pressure s ∧
      (Fits fit → (∀ l e, hmean l = .error e → e = .valueError) →
        ∃ res, compRelaxations signals fit hmean file' = .ok res) ∧
      ∀ res, compRelaxations signals fit hmean file' = .ok res → ∃ τ : ℕ → String → Fin N → ℤ,
        (∀ k, linearFrames raws g.stepsMax g.keyframeInterval g.keyframeMax k ≠ [] →
          TrueTimes (C k) (τ k)) ∧
        (res.map Summary.key).Nodup ∧
        (∀ k' T' P', (k', T', P') ∈ res.map Summary.key ↔ ∃ k : ℕ, k' = k ∧ T' = (r : ℝ) ∧ P' = (s : ℝ) ∧
          linearFrames raws g.stepsMax g.keyframeInterval g.keyframeMax k ≠ [] ∧ AllRelaxed (τ k)) ∧
        ∀ w ∈ res, ∀ k : ℕ, w.key = ((k : ℝ), (r : ℝ), (s : ℝ)) → ∀ name ∈ tauNames,
          Dict.get? w.vals (name ++ "_mean") = some (some ((∑ m, (τ k name m : ℝ)) / N)) ∧
          Dict.get? w.vals (name ++ "_hmean") = some (some (N / ∑ m, 1 / (τ k name m : ℝ))) := by
  obtain ⟨hsuf, v, hv, r, s, hr', hs', hvars⟩ := C164_named_partial L.float hf p pre hpre hP hT hsg
  rw [← hin] at hsuf hv
  rw [C164_options L g c raws text file hm ho hr hv, if_pos hsuf, hlin, hvars] at hrun
  simp only [if_true] at hrun
  obtain ⟨hd, p0, p1, p2, htri, -⟩ := C91_default_molecule
  set a := L.args g.waveNumber c.scatteringFunction with ha
  have hmol : a.mol.positions ≠ [] := by
    rw [show a.mol = trimerMol from rfl, htri]; simp
  have hfr : ∀ k, framesOf k (visitsOf (cenv a (r : ℝ) (s : ℝ))
      (readGsd raws g.stepsMax none g.keyframeInterval g.keyframeMax).1) =
      linearFrames raws g.stepsMax g.keyframeInterval g.keyframeMax k := fun k =>
    linear_framesOf a _ raws g.stepsMax g.keyframeInterval g.keyframeMax hc hi hk1 k
  have hCk : ∀ k, framesOf k (visitsOf (cenv a (r : ℝ) (s : ℝ))
      (readGsd raws g.stepsMax none g.keyframeInterval g.keyframeMax).1) ≠ [] →
      (C k).Of a (framesOf k (visitsOf (cenv a (r : ℝ) (s : ℝ))
        (readGsd raws g.stepsMax none g.keyframeInterval g.keyframeMax).1)) ∧
      (k : ℝ) ≠ 2 ^ 32 - 1 := by
    intro k hne
    rw [hfr] at hne ⊢
    obtain ⟨c1, c2, c3, c4, c5⟩ := hC k hne
    refine ⟨⟨?_, by rw [c2]; exact hκ, c3, c4, ?_, ?_, c5⟩, ?_⟩
    · rw [c1, show a.mol = trimerMol from rfl, hd]; rfl
    · rw [c2]; rfl
    · apply gframes_later (box := (C k).box) (s := (C k).s) (o := (C k).o)
      rw [← c5]
      exact List.Pairwise.sublist (linearFrames_sublist _ _ _ _ _) hinc
    · intro h
      have h1 : (k : Int) = 2 ^ 32 - 1 := by exact_mod_cast h
      apply hne
      unfold linearFrames
      rw [if_neg (by omega)]
  have hrun' : processFile (cenv a (r : ℝ) (s : ℝ)) (some ((readGsd raws g.stepsMax none
      g.keyframeInterval g.keyframeMax).1, (readGsd raws g.stepsMax none
      g.keyframeInterval g.keyframeMax).2)) true file = (file', .ok out) := hrun
  refine ⟨r, s, hr', hs', ?_, ?_⟩
  · intro hfit he
    exact C111_returns hN hN' hmol rfl (rounded_small hr' hT') (rounded_small hs' hP') hrun' C hCk signals hfit hh he
  · intro res hres
    obtain ⟨τ, t1, t2, t3, t4⟩ := C111_times hN hN' hmol rfl (rounded_small hr' hT') (rounded_small hs' hP') hrun' C hCk
      hh hres
    simp only [hfr] at t1 t3
    exact ⟨τ, t1, t2, t3, t4⟩

/-- **C165, exponential steps without a limit.**  On a gsd file the command does what it does with the step of the last readable
frame as `--num-steps`, if fewer than ten corrupt frames follow it; so `C165_times_partial` applies to it. -/
theorem C165_unlimited (L : Lib) (g : Cli.Globals ℝ) (c : Cli.Command) (hm : g.molecule = none)
    (ho : g.output = none) (hr : c.molRelaxations = none) (hlin : c.linearDynamics = false)
    (hM : g.stepsMax = none) (hsuf : suffix c.infile = ".gsd".toList) {before : List (Raw PData)} (f : GFrame PData) (j : ℕ) (hj : j < 10)
    (text : List Char) (file : File FRec) :
    compDynamicsRun L g c (before ++ .ok f :: List.replicate j (.error .runtimeError)) text file =
      compDynamicsRun L { g with stepsMax := some f.timestep } c
        (before ++ .ok f :: List.replicate j (.error .runtimeError)) text file := by
  have hn : getNumSteps (before ++ .ok f :: List.replicate j (.error .runtimeError)) = .ok f.timestep :=
    (C15_num_steps before (List.replicate j (.error .runtimeError)) (by
      intro r hr; exact List.eq_of_mem_replicate hr)).1 f (by simpa using hj)
  cases hv : fromFilename c.infile with
  | error e =>
    obtain ⟨args, h1, -⟩ := Cli.C72_arguments_partial g c hm ho
    obtain ⟨args', h1', -⟩ := Cli.C72_arguments_partial { g with stepsMax := some f.timestep } c hm ho
    simp only [compDynamicsRun, h1, h1', processArgs, hv]
  | ok v =>
    rw [C164_options L g c _ text file hm ho hr hv,
      C164_options L { g with stepsMax := some f.timestep } c _ text file hm ho hr hv, hM, hlin,
      if_pos hsuf, if_pos hsuf]
    simp only [Bool.false_eq_true, if_false, processGsd, readGsd, gsdExponential, stepsToRead, hn]

/-- The options of the example with linear steps and no limit. -/
noncomputable def linearG : Cli.Globals ℝ :=
  { keyframeInterval := 20, linearSteps := 100, keyframeMax := 500, waveNumber := 2 }

/-- The command with linear steps. -/
noncomputable def linearC : Cli.Command := { cmdC with linearDynamics := true }

theorem linear_frames_example (k : ℕ) : linearFrames wholeRaws none 20 500 k =
    if k = 0 then gframes wholeC.t wholeC.box wholeC.s wholeC.o wholeC.n else [] := by
  classical
  have hall : (readable wholeRaws).takeWhile (fun f => !(none : Option Int).any (fun m => decide (m < f.timestep))) =
      gframes wholeC.t wholeC.box wholeC.s wholeC.o wholeC.n := by
    rw [whole_readable]
    exact List.takeWhile_eq_self_iff.2 (fun _ _ => rfl)
  have hl : gframes wholeC.t wholeC.box wholeC.s wholeC.o wholeC.n =
      [0, 1, 2, 3, 4, 5].map (gf wholeC.t wholeC.box wholeC.s wholeC.o) := rfl
  unfold linearFrames
  rw [hall]
  have hmol : ∀ f ∈ gframes wholeC.t wholeC.box wholeC.s wholeC.o wholeC.n, decide (f.data.position ≠ []) = true := by
    intro f hf
    obtain ⟨i, -, rfl⟩ := List.mem_map.1 hf
    simp [gf]
  have hstep : ∀ i, (gf wholeC.t wholeC.box wholeC.s wholeC.o i).timestep = 3 * (i : ℤ) := fun i => rfl
  cases k with
  | zero =>
    have h0 : fromMultiple 20 0 (gframes wholeC.t wholeC.box wholeC.s wholeC.o wholeC.n) =
        gframes wholeC.t wholeC.box wholeC.s wholeC.o wholeC.n := by
      rw [hl, List.map_cons, fromMultiple, if_pos (by rw [hstep]; simp)]
    rw [if_pos (by simp), h0, if_pos rfl, List.filter_eq_self.2 hmol]
  | succ k =>
    have h0 : fromMultiple 20 (k + 1) (gframes wholeC.t wholeC.box wholeC.s wholeC.o wholeC.n) = [] := by
      rw [hl]
      simp only [List.map_cons, List.map_nil, fromMultiple, hstep]
      norm_num
    rw [h0, if_neg (Nat.succ_ne_zero k)]
    simp

/-- From the command line to the table with linear steps: the mean time to diffuse is 9. -/
example : ∃ file' res w, compDynamicsRun cmdLib linearG linearC wholeRaws [] [] = (file', .ok none) ∧
    compRelaxations true noFit oldHmean file' = .ok res ∧ w ∈ res ∧
    Dict.get? w.vals "tau_D_mean" = some (some 9) := by
  have hrun : ∃ file', compDynamicsRun cmdLib linearG linearC wholeRaws [] [] = (file', .ok none) := by
    refine C164_returns_linear_partial cmdLib cmdLib_reads linearG linearC rfl rfl rfl rfl (by norm_num [linearG])
      (by decide) (by decide) exampleParams (some "dump".toList) (Or.inr (Or.inl rfl))
      (by norm_num [exampleParams]) (by norm_num [exampleParams]) cmd_group rfl whole_corrupt (whole_readable.trans (by
        rw [gframes, List.range_succ_eq_map, List.map_cons])) ⟨0, rfl⟩ (by intro M h; cases h) (by simp [gf]) ?_ [] []
    intro f hf _
    rw [whole_readable] at hf
    obtain ⟨i, -, rfl⟩ := List.mem_map.1 hf
    exact ⟨by simp [gf], by simp [gf, wholeC, eC], _, createFreudBox_cell tC⟩
  obtain ⟨file', hrun⟩ := hrun
  have h0 : linearFrames wholeRaws none 20 500 0 ≠ [] := by rw [linear_frames_example]; simp [gframes]
  obtain ⟨r, s, -, -, h1, h2⟩ := C165_linear_partial (N := 10) (by norm_num) (by norm_num) cmdLib cmdLib_reads linearG
    linearC rfl rfl rfl rfl (by norm_num [linearG]) (by decide) (by decide) (by decide)
    exampleParams (some "dump".toList) (Or.inr (Or.inl rfl)) (by norm_num [exampleParams])
    (by norm_num [exampleParams]) (by norm_num [exampleParams]) (by norm_num [exampleParams]) cmd_group rfl whole_corrupt
    (by rw [whole_readable]; simp [Increasing, gframes, wholeC, eC, List.range_succ, gf])
    (fun _ => wholeC) (by
      intro k hk
      change linearFrames wholeRaws none 20 500 k ≠ [] at hk
      change _ ∧ _ ∧ _ ∧ _ ∧ linearFrames wholeRaws none 20 500 k = _
      rw [linear_frames_example] at hk ⊢
      split at hk
      · rename_i h
        rw [if_pos h]
        exact ⟨rfl, rfl, rfl, e_follows, rfl⟩
      · exact absurd rfl hk)
    hrun (signals := true) (fit := noFit) oldHmean_spec
  obtain ⟨res, hres⟩ := h1 (fun _ => Or.inr rfl) oldHmean_error
  obtain ⟨τ, hτ, -, hkeys, hvals⟩ := h2 res hres
  have hτ0 : TrueTimes eC (τ 0) := by
    have ht : (fun i => wholeC.t i - wholeC.t 0) = fun i => eC.t i - eC.t 0 := by
      funext i
      simp [wholeC, eC, tT]
    obtain ⟨a, b, c, d, e, f⟩ := hτ 0 h0
    rw [ht] at a b c d e f
    exact ⟨a, b, c, d, e, f⟩
  obtain ⟨hD, hF, hall⟩ := e_times hτ0
  obtain ⟨w, hw, hkey⟩ := List.mem_map.1 ((hkeys ((0 : ℕ) : ℝ) _ _).2 ⟨0, rfl, rfl, rfl, h0, hall⟩)
  refine ⟨file', res, w, hrun, hres, hw, ?_⟩
  have := (hvals w hw 0 hkey "tau_D" (by simp [tauNames])).1
  rw [show "tau_D" ++ "_mean" = "tau_D_mean" from rfl] at this
  rw [this]
  simp [hD]

/-- A file whose last readable frame is followed by three corrupt ones. -/
example (f : GFrame PData) : compDynamicsRun cmdLib { wholeG with stepsMax := none } cmdC
      (wholeRaws ++ .ok f :: List.replicate 3 (.error .runtimeError)) [] [] =
    compDynamicsRun cmdLib { wholeG with stepsMax := some f.timestep } cmdC
      (wholeRaws ++ .ok f :: List.replicate 3 (.error .runtimeError)) [] [] :=
  C165_unlimited cmdLib _ cmdC rfl rfl rfl rfl rfl
    (C164_named_partial cmdLib.float cmdLib_reads exampleParams (some "dump".toList) (Or.inr (Or.inl rfl))
      (by norm_num [exampleParams]) (by norm_num [exampleParams]) cmd_group).1 f 3 (by norm_num) [] []

end Verif.Pipeline
