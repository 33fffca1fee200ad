import Verif.Pipeline.CommandProps
import Verif.Pipeline.ChainProps
import Verif.Pipeline.WholeLemmas
/-!
# C165: `comp-dynamics` followed by `comp-relaxations`, from the command line on
-/

namespace Verif.Pipeline

open Verif.Motion Verif.Dynamics Verif.Relax Verif.Gsd Verif.Process Verif.Cache Verif.Names Verif.StepSize
  Verif.Tables

variable {N : ℕ}

/-- **C165.**  `comp-dynamics` on a file named by `SimulationParams.filename`, then `comp-relaxations` on what it
wrote.  If the frames of each keyframe are those of a true course, the result has one row for each keyframe from
which every molecule relaxed in every way, and no others; its temperature and pressure are those of the parameters
rounded to two decimals, and it gives the means of the true relaxation times of the molecules. -/
theorem C165_times_partial (hN : 10 ≤ N) (hN' : N < 2 ^ 32) (L : Lib)
    (hf : ∀ s q, DecimalText s q → L.float s = some (q : ℝ)) (g : Cli.Globals ℝ) (c : Cli.Command)
    (hm : g.molecule = none) (ho : g.output = none) (hr : c.molRelaxations = none)
    (hlin : c.linearDynamics = false) (hκ : 0 < g.waveNumber) (hi : 1 ≤ g.keyframeInterval)
    (hl : 1 ≤ g.linearSteps) (hk1 : 1 ≤ g.keyframeMax) (hk2 : g.keyframeMax < 2 ^ 32)
    {M : Int} (hM : g.stepsMax = some M) (hM0 : 0 ≤ M)
    (p : Params) (pre : Option (List Char)) (hpre : KnownPrefix pre) (hP : 0 ≤ p.pressure)
    (hT : 0 ≤ p.temperature) (hP' : p.pressure < 2 ^ 32 - 2) (hT' : p.temperature < 2 ^ 32 - 2)
    (hsg : ∀ sg ∈ p.spaceGroup, SpaceGroupName sg) (hin : c.infile = p.filename pre)
    {raws : List (Raw PData)} (hc : OnlyCorrupt raws) (hinc : Increasing (readable raws))
    (hser : (∀ f ∈ readable raws, f.timestep ≤ M → f.timestep ∈
        (seriesList M g.linearSteps g.keyframeInterval g.keyframeMax).map Prod.fst) ∨
      NoStepMissing (readable raws)
        ((seriesList M g.linearSteps g.keyframeInterval g.keyframeMax).map Prod.fst))
    (C : ℕ → Course N)
    (hC : ∀ k, seriesFrames raws M g.linearSteps g.keyframeInterval g.keyframeMax k ≠ [] →
      (C k).c.is2D = true ∧ (C k).κ = g.waveNumber ∧ (C k).box 0 = (C k).c.array ∧
      Follows (C k).c (C k).n (C k).u (C k).s (C k).θ (C k).σ (C k).o ∧
      seriesFrames raws M g.linearSteps g.keyframeInterval g.keyframeMax k =
        gframes (C k).t (C k).box (C k).s (C k).o (C k).n)
    {text : List Char} {file file' : File FRec} {out : Option (List FRec)}
    (hrun : compDynamicsRun L g c raws text file = (file', .ok out))
    {signals : Bool} {fit : List (ℝ × ℝ) → Except PyErr RelaxTime.Fit} {hmean : List ℝ → Except PyErr ℝ}
    (hh : IsHarmonicMean hmean) :
    ∃ r s : ℚ, RoundedTo2 p.temperature r ∧ RoundedTo2 p.pressure s ∧
      (Fits fit → (∀ l e, hmean l = .error e → e = .valueError) →
        ∃ res, compRelaxations signals fit hmean file' = .ok res) ∧
      ∀ res, compRelaxations signals fit hmean file' = .ok res → ∃ τ : ℕ → String → Fin N → ℤ,
        (∀ k, seriesFrames raws M g.linearSteps g.keyframeInterval g.keyframeMax k ≠ [] →
          TrueTimes (C k) (τ k)) ∧
        (res.map Summary.key).Nodup ∧
        (∀ k' T' P', (k', T', P') ∈ res.map Summary.key ↔ ∃ k : ℕ, k' = k ∧ T' = (r : ℝ) ∧ P' = (s : ℝ) ∧
          seriesFrames raws M g.linearSteps g.keyframeInterval g.keyframeMax k ≠ [] ∧ AllRelaxed (τ k)) ∧
        ∀ w ∈ res, ∀ k : ℕ, w.key = ((k : ℝ), (r : ℝ), (s : ℝ)) → ∀ name ∈ tauNames,
          Dict.get? w.vals (name ++ "_mean") = some (some ((∑ m, (τ k name m : ℝ)) / N)) ∧
          Dict.get? w.vals (name ++ "_hmean") = some (some (N / ∑ m, 1 / (τ k name m : ℝ))) := by
  obtain ⟨hsuf, v, hv, r, s, hr', hs', hvars⟩ := C164_named_partial L.float hf p pre hpre hP hT hsg
  rw [← hin] at hsuf hv
  rw [C164_options L g c raws text file hm ho hr hv, if_pos hsuf, hlin, hM, hvars] at hrun
  simp only [Bool.false_eq_true, if_false] at hrun
  obtain ⟨hd, p0, p1, p2, htri, -⟩ := C91_default_molecule
  set a := L.args g.waveNumber c.scatteringFunction with ha
  have hmol : a.mol.positions ≠ [] := by
    rw [show a.mol = trimerMol from rfl, htri]; simp
  have hfr : ∀ k, framesOf k (visitsOf (cenv a (r : ℝ) (s : ℝ))
      (readGsd raws (some M) (some g.linearSteps) g.keyframeInterval g.keyframeMax).1) =
      seriesFrames raws M g.linearSteps g.keyframeInterval g.keyframeMax k := fun k =>
    C96_exponential_frames a _ raws M g.keyframeInterval g.keyframeMax g.linearSteps hc hinc hM0 hi hl hser k
  have hCk : ∀ k, framesOf k (visitsOf (cenv a (r : ℝ) (s : ℝ))
      (readGsd raws (some M) (some g.linearSteps) g.keyframeInterval g.keyframeMax).1) ≠ [] →
      (C k).Of a (framesOf k (visitsOf (cenv a (r : ℝ) (s : ℝ))
        (readGsd raws (some M) (some g.linearSteps) g.keyframeInterval g.keyframeMax).1)) ∧
      (k : ℝ) ≠ 2 ^ 32 - 1 := by
    intro k hne
    have hlt : (k : Int) < g.keyframeMax := by
      by_contra hge
      apply hne
      unfold framesOf
      rw [List.filterMap_eq_nil_iff]
      intro w hw
      simp only [visitsOf, List.mem_flatMap] at hw
      obtain ⟨q, hq, hw⟩ := hw
      split at hw
      · simp at hw
      · obtain ⟨j, hj, rfl⟩ := List.mem_map.1 hw
        have := (C14_keyframe_limit_partial raws (some M) g.keyframeInterval g.keyframeMax hi hk1).1
          g.linearSteps M hl rfl hM0 q hq j hj
        rw [if_neg (by rintro rfl; exact hge this)]
    rw [hfr] at hne ⊢
    obtain ⟨c1, c2, c3, c4, c5⟩ := hC k hne
    refine ⟨⟨?_, by rw [c2]; exact hκ, c3, c4, ?_, ?_, c5⟩, ?_⟩
    · rw [c1, show a.mol = trimerMol from rfl, hd]; rfl
    · rw [c2]; rfl
    · apply gframes_later (box := (C k).box) (s := (C k).s) (o := (C k).o)
      rw [← c5]
      exact List.Pairwise.sublist List.filter_sublist hinc
    · intro h
      have : (k : Int) = 2 ^ 32 - 1 := by exact_mod_cast h
      omega
  have hrun' : processFile (cenv a (r : ℝ) (s : ℝ)) (some ((readGsd raws (some M) (some g.linearSteps)
      g.keyframeInterval g.keyframeMax).1, (readGsd raws (some M) (some g.linearSteps)
      g.keyframeInterval g.keyframeMax).2)) true file = (file', .ok out) := hrun
  refine ⟨r, s, hr', hs', ?_, ?_⟩
  · intro hfit he
    exact C111_returns hN hN' hmol rfl (rounded_small hr' hT') (rounded_small hs' hP') hrun' C hCk signals hfit hh he
  · intro res hres
    obtain ⟨τ, t1, t2, t3, t4⟩ := C111_times hN hN' hmol rfl (rounded_small hr' hT') (rounded_small hs' hP') hrun' C hCk
      hh hres
    simp only [hfr] at t1 t3
    exact ⟨τ, t1, t2, t3, t4⟩

/-- C165 fails for temperatures closer than a hundredth: the name is the same, and so are the tables. -/
theorem C165_refuted :
    ∃ p q : Params, 0 ≤ p.pressure ∧ 0 ≤ p.temperature ∧ 0 ≤ q.pressure ∧ 0 ≤ q.temperature ∧
      (∀ sg ∈ p.spaceGroup, SpaceGroupName sg) ∧ q.spaceGroup = p.spaceGroup ∧
      p.temperature ≠ q.temperature ∧ p.filename none = q.filename none := by
  refine ⟨exampleParams, { exampleParams with temperature := 401 / 1000 }, by norm_num [exampleParams],
    by norm_num [exampleParams], by norm_num [exampleParams], by norm_num, cmd_group, rfl,
    by norm_num [exampleParams], ?_⟩
  have h : fmt2 (2 / 5) = fmt2 (401 / 1000) := by
    have h1 : roundHalfEven (100 * |2 / 5|) = roundHalfEven (100 * |401 / 1000|) := by
      have e1 : ⌊(100 * |2 / 5| : ℚ)⌋ = 40 := by rw [Int.floor_eq_iff]; norm_num
      have e2 : ⌊(100 * |401 / 1000| : ℚ)⌋ = 40 := by rw [Int.floor_eq_iff]; norm_num [abs_of_pos]
      unfold roundHalfEven
      rw [e1, e2]
      norm_num [abs_of_pos]
    unfold fmt2
    rw [h1]
    norm_num
  simp only [Params.filename, Params.baseName]
  rw [show exampleParams.temperature = 2 / 5 from rfl, h]

/-- The course of `eC` from step 0 on. -/
noncomputable def wholeC : Course 10 := { eC with t := fun i => 3 * i }

/-- Its file. -/
noncomputable def wholeRaws : List (Raw PData) := (gframes wholeC.t wholeC.box wholeC.s wholeC.o wholeC.n).map .ok

/-- Its options: one keyframe. -/
noncomputable def wholeG : Cli.Globals ℝ :=
  { stepsMax := some 15, keyframeInterval := 20, linearSteps := 100, keyframeMax := 500, waveNumber := 2 }

theorem whole_readable : readable wholeRaws = gframes wholeC.t wholeC.box wholeC.s wholeC.o wholeC.n := by
  simp [wholeRaws, readable, List.filterMap_map]

theorem whole_corrupt : OnlyCorrupt wholeRaws := by
  intro r hr e he
  subst he
  simp [wholeRaws] at hr

theorem whole_series : seriesList 15 100 20 500 = (List.range 16).map (fun i : ℕ => ((i : ℤ), [0])) := by
  decide

theorem whole_frames (k : ℕ) : seriesFrames wholeRaws 15 100 20 500 k =
    if k = 0 then gframes wholeC.t wholeC.box wholeC.s wholeC.o wholeC.n else [] := by
  classical
  unfold seriesFrames
  rw [whole_series, whole_readable]
  split
  · rename_i hk
    subst hk
    rw [List.filter_eq_self]
    intro f hf
    obtain ⟨i, hi, rfl⟩ := List.mem_map.1 hf
    have hi : i < 6 := by simpa [wholeC, eC] using hi
    rw [decide_eq_true_iff]
    refine ⟨by simp [gf], 0, rfl, by simp [gf, wholeC], ?_⟩
    change Wants 15 100 0 (3 * (i : ℤ))
    by_cases h5 : i = 5
    · exact Or.inl (by rw [h5]; rfl)
    · exact Or.inr ⟨by omega, by omega, 0, 3 * i, by omega, by simp, Or.inl rfl⟩
  · rename_i hk
    rw [List.filter_eq_nil_iff]
    intro f hf h
    rw [decide_eq_true_iff] at h
    obtain ⟨-, s0, h, -⟩ := h
    have : firstStep ((List.range 16).map (fun i : ℕ => ((i : ℤ), [0]))) k = none := by
      simp [StepSize.firstStep, List.find?_eq_none, hk]
    rw [this] at h
    cases h

/-- From the command line to the table: the mean time to diffuse is 9, and the harmonic mean of the times to move
is 3. -/
example : ∃ file' res w, compDynamicsRun cmdLib wholeG cmdC wholeRaws [] [] = (file', .ok none) ∧
    compRelaxations true noFit oldHmean file' = .ok res ∧ w ∈ res ∧
    Dict.get? w.vals "tau_D_mean" = some (some 9) ∧ Dict.get? w.vals "tau_F_hmean" = some (some 3) := by
  have hrun : ∃ file', compDynamicsRun cmdLib wholeG cmdC wholeRaws [] [] = (file', .ok none) := by
    refine C164_returns_partial cmdLib cmdLib_reads wholeG cmdC rfl rfl rfl rfl (by norm_num [wholeG]) (by decide)
      (by decide) (M := 15) rfl (by decide) exampleParams (some "dump".toList) (Or.inr (Or.inl rfl))
      (by norm_num [exampleParams]) (by norm_num [exampleParams]) cmd_group rfl whole_corrupt (whole_readable.trans (by
        rw [gframes, List.range_succ_eq_map, List.map_cons])) rfl (by simp [gf]) ?_ [] []
    intro f hf _
    rw [whole_readable] at hf
    obtain ⟨i, -, rfl⟩ := List.mem_map.1 hf
    exact ⟨by simp [gf], by simp [gf, wholeC, eC], _, createFreudBox_cell tC⟩
  obtain ⟨file', hrun⟩ := hrun
  have h0 : seriesFrames wholeRaws 15 100 20 500 0 ≠ [] := by rw [whole_frames]; simp [gframes]
  obtain ⟨r, s, -, -, h1, h2⟩ := C165_times_partial (N := 10) (by norm_num) (by norm_num) cmdLib cmdLib_reads wholeG cmdC
    rfl rfl rfl rfl (by norm_num [wholeG]) (by decide) (by decide) (by decide) (by decide) (M := 15) rfl (by decide)
    exampleParams (some "dump".toList) (Or.inr (Or.inl rfl)) (by norm_num [exampleParams])
    (by norm_num [exampleParams]) (by norm_num [exampleParams]) (by norm_num [exampleParams]) cmd_group rfl whole_corrupt
    (by rw [whole_readable]; simp [Increasing, gframes, wholeC, eC, List.range_succ, gf])
    (Or.inl (by
      intro f hf _
      rw [whole_readable] at hf
      obtain ⟨i, hi, rfl⟩ := List.mem_map.1 hf
      have hi : i < 6 := by simpa [wholeC, eC] using hi
      change (3 * (i : ℤ)) ∈ (seriesList 15 100 20 500).map Prod.fst
      rw [whole_series]
      interval_cases i <;> decide))
    (fun _ => wholeC) (by
      intro k hk
      change seriesFrames wholeRaws 15 100 20 500 k ≠ [] at hk
      change _ ∧ _ ∧ _ ∧ _ ∧ seriesFrames wholeRaws 15 100 20 500 k = _
      rw [whole_frames] at hk ⊢
      split at hk
      · rename_i h
        rw [if_pos h]
        exact ⟨rfl, rfl, rfl, e_follows, rfl⟩
      · exact absurd rfl hk)
    hrun (signals := true) (fit := noFit) oldHmean_spec
  obtain ⟨res, hres⟩ := h1 (fun _ => Or.inr rfl) oldHmean_error
  obtain ⟨τ, hτ, -, hkeys, hvals⟩ := h2 res hres
  have hτ0 : TrueTimes eC (τ 0) := by
    have ht : (fun i => wholeC.t i - wholeC.t 0) = fun i => eC.t i - eC.t 0 := by
      funext i
      simp [wholeC, eC, tT]
    obtain ⟨a, b, c, d, e, f⟩ := hτ 0 h0
    rw [ht] at a b c d e f
    exact ⟨a, b, c, d, e, f⟩
  obtain ⟨hD, hF, hall⟩ := e_times hτ0
  obtain ⟨w, hw, hkey⟩ := List.mem_map.1 ((hkeys ((0 : ℕ) : ℝ) _ _).2 ⟨0, rfl, rfl, rfl, h0, hall⟩)
  refine ⟨file', res, w, hrun, hres, hw, ?_, ?_⟩
  · have := (hvals w hw 0 hkey "tau_D" (by simp [tauNames])).1
    rw [show "tau_D" ++ "_mean" = "tau_D_mean" from rfl] at this
    rw [this]
    simp [hD]
  · have := (hvals w hw 0 hkey "tau_F" (by simp [tauNames])).2
    rw [show "tau_F" ++ "_hmean" = "tau_F_hmean" from rfl] at this
    rw [this]
    simp [hF]
    norm_num

end Verif.Pipeline
