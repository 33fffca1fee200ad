import Verif.Pipeline.SessionSpec
import Verif.Pipeline.WholeProps
/-!
# Lemmas for C175
-/

namespace Verif.Pipeline

open Verif.Motion Verif.Dynamics Verif.Relax Verif.Gsd Verif.Process Verif.Cache Verif.Names Verif.StepSize
  Verif.Tables

variable {L : Lib} {signals : Bool} {fit : List (ℝ × ℝ) → Except PyErr RelaxTime.Fit}
  {hmean : List ℝ → Except PyErr ℝ}

theorem session_append (f : Output) (a b : List Run) :
    session L signals fit hmean f (a ++ b) =
      session L signals fit hmean (session L signals fit hmean f a) b := List.foldl_append

theorem current_iff {f : Output} : Current signals fit hmean f ↔
    ∀ res, f.relaxations = some res → compRelaxations signals fit hmean f.tables = .ok res := by
  refine forall_congr' fun res => imp_congr_right fun _ => ?_
  unfold compRelaxationsRun
  cases h : compRelaxations signals fit hmean f.tables with
  | error e => simp
  | ok r => simp

theorem relaxations_current (f : Output) (hok : (compRelaxationsRun signals fit hmean f).2 = none) :
    Current signals fit hmean (compRelaxationsRun signals fit hmean f).1 ∧
      ∃ res, (compRelaxationsRun signals fit hmean f).1.relaxations = some res := by
  rw [current_iff]
  unfold compRelaxationsRun at hok ⊢
  cases h : compRelaxations signals fit hmean f.tables with
  | error e => rw [h] at hok; cases hok
  | ok res => exact ⟨by rintro r ⟨⟩; exact h, res, rfl⟩

theorem current_points {f : Output} (h : Current signals fit hmean f) : SamePoints f := by
  intro res hres w hw
  have hc := current_iff.1 h res hres
  obtain ⟨dyn, mol, m, cols, -, hm, -, -, -⟩ := computeRelaxations_eq hc
  obtain ⟨rs, hrs, rfl⟩ := Option.map_eq_some_iff.1 hm
  obtain ⟨-, hk⟩ := C54_known_partial hc hm
  obtain ⟨⟨r, hr, h1, h2, h3⟩, -⟩ := (hk w.key.1 w.key.2.1 w.key.2.2).1 (List.mem_map_of_mem hw)
  refine ⟨rs, hrs, ?_⟩
  obtain ⟨i, hi, rfl⟩ := List.mem_iff_getElem.1 hr
  simp only [molTable, List.getElem_mapIdx] at h1 h2 h3
  exact ⟨_, List.getElem_mem _, h1, h2, h3⟩

/-- The parameters of the example at another temperature. -/
def paramsAt (T : ℚ) : Params := { exampleParams with temperature := T }

/-- The command of the example on the trajectory at that temperature. -/
def commandAt (T : ℚ) : Cli.Command := { cmdC with infile := (paramsAt T).filename (some "dump".toList) }

/-- All molecules in the file are of the temperature in the name of the trajectory. -/
theorem temperature_stored (T : ℚ) (hT : 0 ≤ T) (g : Cli.Globals ℝ) (hm : g.molecule = none)
    (ho : g.output = none) {raws : List (Raw PData)} {text : List Char} {file file' : File FRec}
    {out : Option (List FRec)} (h : compDynamicsRun cmdLib g (commandAt T) raws text file = (file', .ok out)) :
    ∃ r : ℚ, RoundedTo2 T r ∧ ∀ rs, Dict.get? file' "molecular_relaxations" = some rs → ∀ x ∈ rs,
      recVal x "temperature" = some (r : ℝ) := by
  obtain ⟨hsuf, v, hv, r, s, hr, -, hvars⟩ := C164_named_partial cmdLib.float cmdLib_reads (paramsAt T)
    (some "dump".toList) (Or.inr (Or.inl rfl)) (by norm_num [paramsAt, exampleParams]) hT cmd_group
  refine ⟨r, hr, ?_⟩
  rw [C164_options cmdLib g (commandAt T) raws text file hm ho rfl hv, if_pos (show suffix (commandAt T).infile = _ from hsuf),
    hvars] at h
  obtain ⟨-, -, -, w, hw, -, -, h1, -⟩ := processFile_ok _ _ _ _ _ _ h
  obtain rfl : ((some (r : ℝ), some (s : ℝ)) : Vars) = w := by simpa [env] using hw
  intro rs hrs x hx
  rw [h1] at hrs
  obtain rfl := Option.some.inj hrs
  unfold molRows at hx
  obtain ⟨p, -, hx⟩ := List.mem_flatMap.1 hx
  obtain ⟨i, hi, rfl⟩ := List.mem_iff_getElem.1 hx
  simp [recVal]

/-- The run of C165 for any temperature, in any file. -/
theorem whole_run (T : ℚ) (hT : 0 ≤ T) (hT' : T < 2 ^ 32 - 2) (file : File FRec) :
    ∃ file' r s, RoundedTo2 T r ∧
      compDynamicsRun cmdLib wholeG (commandAt T) wholeRaws [] file = (file', .ok none) ∧
      ∃ res, compRelaxations true noFit oldHmean file' = .ok res ∧
        ∀ k T P, (k, T, P) ∈ res.map Summary.key ↔ k = 0 ∧ T = ((r : ℚ) : ℝ) ∧ P = ((s : ℚ) : ℝ) := by
  have hp : (paramsAt T).pressure = 27 / 2 := rfl
  have hrun : ∃ file', compDynamicsRun cmdLib wholeG (commandAt T)
      wholeRaws [] file = (file', .ok none) := by
    refine C164_returns_partial cmdLib cmdLib_reads wholeG _ rfl rfl rfl rfl (by norm_num [wholeG]) (by decide)
      (by decide) (M := 15) rfl (by decide) (paramsAt T) (some "dump".toList) (Or.inr (Or.inl rfl))
      (by rw [hp]; norm_num) hT cmd_group rfl whole_corrupt (whole_readable.trans (by
        rw [gframes, List.range_succ_eq_map, List.map_cons])) rfl (by simp [gf]) ?_ [] file
    intro f hf _
    rw [whole_readable] at hf
    obtain ⟨i, -, rfl⟩ := List.mem_map.1 hf
    exact ⟨by simp [gf], by simp [gf, wholeC, eC], _, createFreudBox_cell tC⟩
  obtain ⟨file', hrun⟩ := hrun
  have h0 : seriesFrames wholeRaws 15 100 20 500 0 ≠ [] := by rw [whole_frames]; simp [gframes]
  obtain ⟨r, s, hr, -, h1, h2⟩ := C165_times_partial (N := 10) (by norm_num) (by norm_num) cmdLib cmdLib_reads wholeG _
    rfl rfl rfl rfl (by norm_num [wholeG]) (by decide) (by decide) (by decide) (by decide) (M := 15) rfl (by decide)
    (paramsAt T) (some "dump".toList) (Or.inr (Or.inl rfl)) (by rw [hp]; norm_num)
    hT (by rw [hp]; norm_num) hT' cmd_group rfl whole_corrupt
    (by rw [whole_readable]; simp [Increasing, gframes, wholeC, eC, List.range_succ, gf])
    (Or.inl (by
      intro f hf _
      rw [whole_readable] at hf
      obtain ⟨i, hi, rfl⟩ := List.mem_map.1 hf
      have hi : i < 6 := by simpa [wholeC, eC] using hi
      change (3 * (i : ℤ)) ∈ (seriesList 15 100 20 500).map Prod.fst
      rw [whole_series]
      interval_cases i <;> decide))
    (fun _ => wholeC) (by
      intro k hk
      change seriesFrames wholeRaws 15 100 20 500 k ≠ [] at hk
      change _ ∧ _ ∧ _ ∧ _ ∧ seriesFrames wholeRaws 15 100 20 500 k = _
      rw [whole_frames] at hk ⊢
      split at hk
      · rename_i h
        rw [if_pos h]
        exact ⟨rfl, rfl, rfl, e_follows, rfl⟩
      · exact absurd rfl hk)
    hrun (signals := true) (fit := noFit) oldHmean_spec
  obtain ⟨res, hres⟩ := h1 (fun _ => Or.inr rfl) oldHmean_error
  obtain ⟨τ, hτ, -, hkeys, -⟩ := h2 res hres
  have hτ0 : TrueTimes eC (τ 0) := by
    have ht : (fun i => wholeC.t i - wholeC.t 0) = fun i => eC.t i - eC.t 0 := by
      funext i
      simp [wholeC, eC, tT]
    obtain ⟨a, b, c, d, e, f⟩ := hτ 0 h0
    rw [ht] at a b c d e f
    exact ⟨a, b, c, d, e, f⟩
  obtain ⟨hD, hF, hall⟩ := e_times hτ0
  refine ⟨file', r, s, hr, hrun, res, hres, ?_⟩
  intro k T P
  rw [hkeys]
  constructor
  · rintro ⟨k, rfl, rfl, rfl, hk, -⟩
    refine ⟨?_, rfl, rfl⟩
    change seriesFrames wholeRaws 15 100 20 500 k ≠ [] at hk
    rw [whole_frames] at hk
    split at hk
    · rename_i h; rw [h]; simp
    · exact absurd rfl hk
  · rintro ⟨rfl, rfl, rfl⟩
    exact ⟨0, by simp, rfl, rfl, h0, hall⟩

end Verif.Pipeline
