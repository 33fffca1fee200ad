import Verif.Gsd.ErrorProps
import Verif.Pipeline.ReaderProps
import Verif.Process.CrashProps
import Verif.Pipeline.Example
/-!
# C163 for `process_file`
-/

namespace Verif.Pipeline

open Verif.Motion Verif.Dynamics Verif.Relax Verif.Gsd Verif.Process Verif.Cache Verif.StepSize

variable {ν : Type}

/-- From a reader that raises `e` after what it reads from a good file, to `process_file`. -/
theorem process_error (a : Args) (vars : Except PyErr ν) (raws pre : List (Raw PData))
    (stepsMax sm linear : Option Int) (interval kmax : Int) (e : PyErr)
    (file file0 : File (Rec ℕ (Dict Quantity Val) (Dict String ℤ) ν))
    {o : Option (List (Rec ℕ (Dict Quantity Val) (Dict String ℤ) ν))}
    (h1 : (readGsd raws stepsMax linear interval kmax).1 = (readGsd pre sm linear interval kmax).1)
    (h2 : (readGsd raws stepsMax linear interval kmax).2 = some e)
    (h3 : processGsd a vars pre sm linear interval kmax true [] = (file0, .ok o)) :
    ∃ file', processGsd a vars raws stepsMax linear interval kmax true file = (file', .error e) ∧
      ((rows file0 "dynamics").length ≤ 8192 → file' = file) ∧
      (8192 < (rows file0 "dynamics").length → rows file' "dynamics" =
        (rows file0 "dynamics").take (8192 * (((rows file0 "dynamics").length - 1) / 8192))) ∧
      ∀ g, g ≠ "dynamics" → Dict.get? file' g = Dict.get? file g := by
  unfold processGsd at h3 ⊢
  generalize hp : readGsd pre sm linear interval kmax = p at *
  generalize readGsd raws stepsMax linear interval kmax = q at *
  obtain ⟨p1, p2⟩ := p
  obtain ⟨q1, q2⟩ := q
  simp only at h1 h2
  subst h1
  subst h2
  have hp2 : p2 = none := (processFile_ok (env a vars) q1 p2 [] file0 o h3).1
  subst hp2
  exact C107_reader_raises (env a vars) q1 e file file0 o h3

/-- **C163, process_file, linear.**  When reading a frame of the file raises `e` (not RuntimeError) and no
frame before is beyond the limit, `process_file` raises `e`.  Of the rows that the frames before give, only
those of full caches are in the table of dynamics, and there is no new table of molecular relaxations. -/
theorem C163_process_linear (a : Args) (vars : Except PyErr ν) (pre rest : List (Raw PData)) (e : PyErr)
    (stepsMax : Option Int) (interval kmax : Int)
    (file file0 : File (Rec ℕ (Dict Quantity Val) (Dict String ℤ) ν))
    {o : Option (List (Rec ℕ (Dict Quantity Val) (Dict String ℤ) ν))}
    (he : e ≠ .runtimeError) (hc : OnlyCorrupt pre) (hi : interval ≠ 0)
    (hle : ∀ m, stepsMax = some m → ∀ f ∈ readable pre, f.timestep ≤ m)
    (h : processGsd a vars pre stepsMax none interval kmax true [] = (file0, .ok o)) :
    ∃ file', processGsd a vars (pre ++ .error e :: rest) stepsMax none interval kmax true file =
        (file', .error e) ∧
      ((rows file0 "dynamics").length ≤ 8192 → file' = file) ∧
      (8192 < (rows file0 "dynamics").length → rows file' "dynamics" =
        (rows file0 "dynamics").take (8192 * (((rows file0 "dynamics").length - 1) / 8192))) ∧
      ∀ g, g ≠ "dynamics" → Dict.get? file' g = Dict.get? file g := by
  obtain ⟨h1, h2, -⟩ := C163_linear pre rest e stepsMax interval kmax he hc hi
  exact process_error a vars _ pre stepsMax stepsMax none interval kmax e file file0 h1 (h2 hle) h

/-- **C163, process_file, exponential.**  The same with exponential steps, where no frame off the series lies
between the last two steps or no step is missing. -/
theorem C163_process_exponential_partial (a : Args) (vars : Except PyErr ν) (pre rest : List (Raw PData))
    (e : PyErr) (stepsMax : Option Int) (interval kmax linear m : Int)
    (file file0 : File (Rec ℕ (Dict Quantity Val) (Dict String ℤ) ν))
    {o : Option (List (Rec ℕ (Dict Quantity Val) (Dict String ℤ) ν))}
    (he : e ≠ .runtimeError) (hc : OnlyCorrupt pre) (hinc : Increasing (readable pre)) (hm0 : 0 ≤ m)
    (hi : 1 ≤ interval) (hl : 1 ≤ linear)
    (hm : stepsToRead (pre ++ .error e :: rest) stepsMax = .ok m)
    (hle : ∀ f ∈ readable pre, f.timestep ≤ m)
    (hK : NoneBeforeLast (readable pre) ((seriesList m linear interval kmax).map Prod.fst) m ∨
      NoStepMissing (readable pre) ((seriesList m linear interval kmax).map Prod.fst))
    (h : processGsd a vars pre (some m) (some linear) interval kmax true [] = (file0, .ok o)) :
    ∃ file', processGsd a vars (pre ++ .error e :: rest) stepsMax (some linear) interval kmax true file =
        (file', .error e) ∧
      ((rows file0 "dynamics").length ≤ 8192 → file' = file) ∧
      (8192 < (rows file0 "dynamics").length → rows file' "dynamics" =
        (rows file0 "dynamics").take (8192 * (((rows file0 "dynamics").length - 1) / 8192))) ∧
      ∀ g, g ≠ "dynamics" → Dict.get? file' g = Dict.get? file g :=
  process_error a vars _ pre stepsMax (some m) (some linear) interval kmax e file file0
    (C163_exponential_frames pre rest e stepsMax interval kmax linear m he hc hm)
    (C163_exponential_partial pre rest e stepsMax interval kmax linear m he hc hinc hm0 hi hl hm hle hK) h

/-- A file of the first six frames of the run of `Verif.Pipeline.Example`. -/
noncomputable def sixFile : List (Raw PData) :=
  (List.range 6).map (fun i => .ok (gf tT (fun _ => tC.array) tS tO i))

/-- The hypotheses of `C163_process_linear` for these frames. -/
theorem six_meets : OnlyCorrupt sixFile ∧
    ∃ file0, processGsd tA (.ok ()) sixFile none none 5 1 true [] = (file0, .ok none) := by
  have hc : OnlyCorrupt sixFile := by
    intro r hr e he
    subst he
    simp [sixFile] at hr
  refine ⟨hc, ?_⟩
  have hk := env_keeps tA () (by simp [tA, exMol]) (by simp [tA]) (by simp [tA])
  have hr : readGsd sixFile none none 5 1 = (((List.range 6).map (fun i => (if i < 5 then [0] else [0, 1],
      gf tT (fun _ => tC.array) tS tO i)) : List (List ℕ × GFrame PData)), none) := by
    simp [readGsd, gsdLinear, sixFile, iterTrajectory, linearReader, updateIndex, List.range_succ, gf, tT]
  unfold processGsd
  rw [hr]
  have hvis : ∀ v ∈ visitsOf (env tA (.ok ())) ((List.range 6).map (fun i => (if i < 5 then [0] else [0, 1],
      gf tT (fun _ => tC.array) tS tO i))), Usable tA v.2 := by
    intro v hv
    simp only [visitsOf, List.mem_flatMap] at hv
    obtain ⟨p, hp, hv⟩ := hv
    split at hv
    · simp at hv
    · obtain ⟨k, _, rfl⟩ := List.mem_map.1 hv
      obtain ⟨i, _, rfl⟩ := List.mem_map.1 hp
      exact t_usable i
  have hne : visitsOf (env tA (.ok ())) ((List.range 6).map (fun i => (if i < 5 then [0] else [0, 1],
      gf tT (fun _ => tC.array) tS tO i))) ≠ [] := by
    have h : ∀ i, (env tA (.ok ())).numPos (gf tT (fun _ => tC.array) tS tO i) ≠ 0 := by
      intro i; simp [env, gf]
    simp [visitsOf, List.range_succ, h]
  obtain ⟨h1, h2⟩ := keeps_core _ hk _ [] (by simp [Dict.get?]) hvis
  exact processFile_returns _ _ _ () h1 rfl (h2 (Or.inr hne))

/-- The conclusion for an exception after the six frames. -/
example : ∃ file', processGsd tA (.ok ()) (sixFile ++ [.error .valueError]) none none 5 1 true [] =
    (file', .error .valueError) := by
  obtain ⟨hc, file0, h⟩ := six_meets
  obtain ⟨file', h1, -⟩ := C163_process_linear tA (.ok ()) sixFile [] .valueError none 5 1 [] file0
    (by decide) hc (by decide) (by simp) h
  exact ⟨file', h1⟩

end Verif.Pipeline
