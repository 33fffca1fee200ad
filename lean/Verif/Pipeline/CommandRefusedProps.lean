import Verif.Pipeline.CommandProps
/-!
# Command lines of comp-dynamics that yield nothing, and unnamed files, C164
-/

namespace Verif.Pipeline

open Verif.Motion Verif.Dynamics Verif.Relax Verif.Gsd Verif.Process Verif.Cache Verif.Names Verif.Text

section

variable {ι Φ D R ρ σ ν : Type} [DecidableEq ι]

/-- When the custom relaxations always fail, so does every visit. -/
theorem visit_custom (E : Process.Env Φ D R ρ σ ν) (set : R → R × Option PyErr)
    (hc : E.custom = some set) (hs : ∀ r, ∃ e, (set r).2 = some e) (kf : Dict ι (D × R)) (k : ι) (f : Φ) :
    ∃ kf' e, visit E kf k f = (kf', .error e) := by
  unfold visit
  cases E.newDyn f with
  | error e => exact ⟨_, _, rfl⟩
  | ok d =>
    cases E.newRelax f with
    | error e => exact ⟨_, _, rfl⟩
    | ok r =>
      simp only [hc]
      obtain ⟨e, he⟩ := hs ((Dict.get? (Dict.setdefault kf k (d, r)) k).getD (d, r)).2
      generalize set ((Dict.get? (Dict.setdefault kf k (d, r)) k).getD (d, r)).2 = q at he
      obtain ⟨r1, o⟩ := q
      simp only at he
      subst he
      exact ⟨_, _, rfl⟩

theorem frameLoop_custom (E : Process.Env Φ D R ρ σ ν) (set : R → R × Option PyErr)
    (hc : E.custom = some set) (hs : ∀ r, ∃ e, (set r).2 = some e) :
    ∀ (ps : List (List ι × Φ)) (s : St ι D R ρ σ ν),
      (frameLoop E ps s = (s, none)) ∨ ∃ kf e, frameLoop E ps s = ({ s with kf := kf }, some e)
  | [], s => Or.inl rfl
  | ([], f) :: ps, s => by
    rw [frameLoop]
    split
    · exact frameLoop_custom E set hc hs ps s
    · simp only [indexLoop]
      exact frameLoop_custom E set hc hs ps s
  | (k :: ks, f) :: ps, s => by
    rw [frameLoop]
    split
    · exact frameLoop_custom E set hc hs ps s
    · right
      obtain ⟨kf', e, h⟩ := visit_custom E set hc hs s.kf k f
      simp only [indexLoop, h]
      exact ⟨kf', e, rfl⟩

theorem processFile_custom (E : Process.Env Φ D R ρ σ ν) (set : R → R × Option PyErr)
    (hc : E.custom = some set) (hs : ∀ r, ∃ e, (set r).2 = some e)
    (iter : Option (List (List ι × Φ) × Option PyErr)) (file : File (Process.Rec ι ρ σ ν)) :
    ∃ e, processFile E iter true file = (file, .error e) := by
  unfold processFile
  match iter with
  | none => exact ⟨_, rfl⟩
  | some (pairs, ending) =>
    simp only
    rcases frameLoop_custom E set hc hs pairs
      ⟨[], ⟨true, some "dynamics", 1, false, [], 8192, 0⟩, file⟩ with h | ⟨kf, e, h⟩
    · rw [h]
      cases ending with
      | some e => exact ⟨e, rfl⟩
      | none => exact ⟨.valueError, rfl⟩
    · rw [h]
      exact ⟨e, rfl⟩

end

/-- **C164, options that are refused.**  With `--molecule` or `--output` the command ends in a TypeError
and the output file is as it was, whatever the input. -/
theorem C164_refused (L : Lib) (g : Cli.Globals ℝ) (c : Cli.Command) (raws : List (Raw PData))
    (text : List Char) (file : File FRec) (h : (∃ m, g.molecule = some m) ∨ ∃ o, g.output = some o) :
    compDynamicsRun L g c raws text file = (file, .error .typeError) := by
  unfold compDynamicsRun
  rcases h with ⟨m, h⟩ | ⟨o, h⟩
  · rw [Cli.C72_molecule_refuted g c m h]
  · rw [Cli.C72_output_refuted g c o h]

/-- **C164, custom relaxations.**  With `--mol-relaxations` the command never returns and never writes:
whatever the options, the name, the contents and the definitions, it ends in an exception and the output
file is as it was. -/
theorem C164_custom (L : Lib) (g : Cli.Globals ℝ) (c : Cli.Command) (raws : List (Raw PData))
    (text : List Char) (file : File FRec) {p : List Char} (hp : c.molRelaxations = some p) :
    ∃ e, compDynamicsRun L g c raws text file = (file, .error e) := by
  by_cases hm : ∃ m, g.molecule = some m
  · exact ⟨_, C164_refused L g c raws text file (Or.inl hm)⟩
  by_cases ho : ∃ o, g.output = some o
  · exact ⟨_, C164_refused L g c raws text file (Or.inr ho)⟩
  have hm' : g.molecule = none := by
    cases h : g.molecule with
    | none => rfl
    | some m => exact absurd ⟨m, h⟩ hm
  have ho' : g.output = none := by
    cases h : g.output with
    | none => rfl
    | some o => exact absurd ⟨o, h⟩ ho
  obtain ⟨args, h1, h2⟩ := Cli.C72_arguments_partial g c hm' ho'
  have h3 := h2.2.2.2.2.2.2.2.2.2.2.1 p hp
  unfold compDynamicsRun processArgs
  rw [h1]
  simp only
  cases fromFilename c.infile with
  | error e => exact ⟨e, rfl⟩
  | ok v =>
    simp only
    refine processFile_custom _ (fun r => ({ r with relax := [] }, some .attributeError)) ?_
      (fun r => ⟨_, rfl⟩) _ file
    unfold commandEnv
    rw [h3]
    rfl

/-- **C164, files without fields.**  When the name of the input file has fewer than three fields, such as
`trajectory.gsd` or `run-1.gsd`, the rows that the command writes have neither temperature nor pressure. -/
theorem C164_unnamed (L : Lib) (g : Cli.Globals ℝ) (c : Cli.Command) (raws : List (Raw PData))
    (text : List Char) (hm : g.molecule = none) (ho : g.output = none)
    (hr : c.molRelaxations = none)
    (hshort : (dropPrefix (splitOn '-' (stem (pathName c.infile)))).length < 3)
    {file' : File FRec} {out : Option (List FRec)}
    (hrun : compDynamicsRun L g c raws text [] = (file', .ok out)) :
    ∀ x ∈ rows file' "dynamics", ∃ k d, x = .dyn k d (none, none) := by
  have hv : fromFilename c.infile = .ok Variables.empty := by
    unfold fromFilename
    simp only [if_pos hshort]
  have hvars : nameVars L.float Variables.empty = .ok (none, none) := rfl
  rw [C164_options L g c raws text [] hm ho hr hv, hvars] at hrun
  split at hrun
  · exact rows_vars _ _ hrun rfl
  · split at hrun
    · exact rows_vars _ _ hrun rfl
    · cases hrun

/-- **C164, one of the two missing.**  A temperature or pressure that the name does not give is NaN, and the
other one is kept. -/
theorem C164_missing (float : List Char → Option ℝ) (v : Variables) :
    (v.temperature = none → v.pressure = none → nameVars float v = .ok (none, none)) ∧
    (∀ s x, v.temperature = none → v.pressure = some s → float s = some x →
      nameVars float v = .ok (none, some x)) ∧
    ∀ s x, v.temperature = some s → v.pressure = none → float s = some x →
      nameVars float v = .ok (some x, none) := by
  refine ⟨fun h1 h2 => ?_, fun s x h1 h2 h3 => ?_, fun s x h1 h2 h3 => ?_⟩ <;>
    simp [nameVars, nameVar, *]

/-- The name `output/trajectory.gsd` is one of these, and is read with the gsd reader. -/
example : (dropPrefix (splitOn '-' (stem (pathName "output/trajectory.gsd".toList)))).length < 3 ∧
    suffix "output/trajectory.gsd".toList = ".gsd".toList := by decide

/-- A command line with definitions of relaxations, on any input. -/
example (raws : List (Raw PData)) : ∃ e, compDynamicsRun cmdLib { waveNumber := 3 }
    { molRelaxations := some "relax.yaml".toList, infile := "a.gsd".toList, outfile := "out.h5".toList }
    raws [] [("dynamics", [])] = ([("dynamics", [])], .error e) :=
  C164_custom cmdLib _ _ raws [] _ rfl

/-- **C164, which reader.**  A file is read as gsd, or as lammps, file exactly when its name ends in `.gsd`, or
`.lammpstrj`, and has something before that; with every other name the command ends in an UnboundLocalError and
leaves the output file alone. -/
theorem C164_suffix (s : List Char) :
    (suffix s = ".gsd".toList ↔ ∃ st, st ≠ [] ∧ pathName s = st ++ ".gsd".toList) ∧
    (suffix s = ".lammpstrj".toList ↔ ∃ st, st ≠ [] ∧ pathName s = st ++ ".lammpstrj".toList) :=
  ⟨suffix_iff s "gsd".toList (by decide) (by decide), suffix_iff s "lammpstrj".toList (by decide) (by decide)⟩

theorem C164_no_reader (L : Lib) (g : Cli.Globals ℝ) (c : Cli.Command) (raws : List (Raw PData))
    (text : List Char) (file : File FRec) (hm : g.molecule = none) (ho : g.output = none)
    (hr : c.molRelaxations = none) {v : Variables} (hv : fromFilename c.infile = .ok v)
    (hg : ∀ st, st ≠ [] → pathName c.infile ≠ st ++ ".gsd".toList)
    (hl : ∀ st, st ≠ [] → pathName c.infile ≠ st ++ ".lammpstrj".toList) :
    compDynamicsRun L g c raws text file = (file, .error .unboundLocalError) := by
  obtain ⟨h1, h2⟩ := C164_suffix c.infile
  rw [C164_options L g c raws text file hm ho hr hv, if_neg, if_neg]
  · rw [h2]
    rintro ⟨st, a, b⟩
    exact hl st a b
  · rw [h1]
    rintro ⟨st, a, b⟩
    exact hg st a b

/-- The file `.gsd` is one of these, and so is a file `a.GSD`. -/
example : pathName "dir/.gsd".toList = ".gsd".toList ∧ suffix "dir/.gsd".toList = [] ∧
    suffix "a.GSD".toList = ".GSD".toList ∧ suffix "dir.gsd/a".toList = [] := by decide

end Verif.Pipeline
