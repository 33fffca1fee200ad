import Verif.Gsd.Props
import Verif.Pipeline.Props
import Verif.Pipeline.UnsignedLemmas
/-!
# Property C117: trajectories whose steps go back
-/

namespace Verif.Pipeline

open Verif.StepSize Verif.Motion Verif.Dynamics Verif.Relax Verif.Gsd Verif.Process Verif.Cache

variable {ι ν : Type} [DecidableEq ι]

/-- The property as stated: whenever the frames of a trajectory can be analysed, `process_file` returns,
in whatever order the frames are. -/
def AnyOrder : Prop :=
  ∀ (a : Args), a.mol.positions ≠ [] → a.relaxations = none → a.wave ≠ some 0 →
    ∀ (raws : List (Raw PData)) (interval kmax : Int), OnlyCorrupt raws → 1 ≤ interval → 1 ≤ kmax →
    (∀ f ∈ readable raws, Usable a f) → (∃ f, (readable raws).head? = some f ∧ interval ∣ f.timestep) →
    ∃ file', processGsd64 a (.ok ()) raws none none interval kmax true [] = (file', .ok none)

/-- **C117, frames in order.**  When no frame of a keyframe is before its first, differences of steps are
never below zero and the run is that of the models that take steps as integers; all that is proved of
those holds of the steps in gsd files too. -/
theorem C117_forward_partial (a : Args) (vars : Except PyErr ν) (pairs : List (List ι × GFrame PData))
    (ending : Option PyErr) (outfile : Bool) (file : File (Rec ι (Dict Quantity Val) (Dict String ℤ) ν))
    (h : Forward (fun f => f.timestep) (visitsOf (env a vars) pairs)) :
    processFile (env64 a vars) (some (pairs, ending)) outfile file =
      processFile (env a vars) (some (pairs, ending)) outfile file := by
  apply processFile_same (env64_refuses a vars)
  intro p e he
  cases he
  exact h

example : Forward (fun f => f.timestep) (visitsOf (env tA (.ok ())) tPairs) := by
  apply forward_of_pairwise
  simp [tPairs, List.range_succ, gf, tT]

/-- **C117, files in order.**  For a gsd file whose readable frames are in the order of their steps, both
readers give the run of the integer models. -/
theorem C117_sorted_partial (a : Args) (vars : Except PyErr ν) (raws : List (Raw PData))
    (stepsMax linear : Option Int) (interval kmax : Int) (outfile : Bool)
    (file : File (Rec ℕ (Dict Quantity Val) (Dict String ℤ) ν)) (hi : 1 ≤ interval)
    (h : (readable raws).Pairwise (fun f g => f.timestep ≤ g.timestep)) :
    processGsd64 a vars raws stepsMax linear interval kmax outfile file =
      processGsd a vars raws stepsMax linear interval kmax outfile file := by
  unfold processGsd64 processGsd
  rcases hr : readGsd raws stepsMax linear interval kmax with ⟨pairs, e⟩
  apply C117_forward_partial
  apply forward_of_pairwise
  have hiter := (iterTrajectory_prefix raws).sublist
  have hsub : (pairs.map Prod.snd).Sublist (readable raws) := by
    have hp : pairs = (readGsd raws stepsMax linear interval kmax).1 := by rw [hr]
    cases linear with
    | none =>
      simp only [readGsd, gsdLinear] at hp
      rw [hp, linear_frames _ _ _ (by omega)]
      exact (List.takeWhile_sublist _).trans hiter
    | some l =>
      simp only [readGsd, gsdExponential] at hp
      cases hm : stepsToRead raws stepsMax with
      | error e => rw [hm] at hp; rw [hp]; exact List.nil_sublist _
      | ok m =>
        rw [hm] at hp
        rw [hp]
        exact ((exp_sublist m _ _).1 _).1.trans hiter
  exact h.sublist hsub

example : (readable ((gframes tT (fun _ => tC.array) tS tO 3).map Except.ok)).Pairwise
    (fun f g => f.timestep ≤ g.timestep) := by
  simp [gframes, readable, List.range_succ, gf, tT]

/-- **C117, the exponential reader.**  Whatever the order of the frames in the file, the exponential
reader hands them out in the order of the step series, so the run is that of the integer models. -/
theorem C117_exponential_partial (a : Args) (vars : Except PyErr ν) (raws : List (Raw PData))
    (stepsMax : Option Int) (linear m : Int) (interval kmax : Int) (outfile : Bool)
    (file : File (Rec ℕ (Dict Quantity Val) (Dict String ℤ) ν)) (hi : 1 ≤ interval) (hl : 1 ≤ linear)
    (hm : stepsToRead raws stepsMax = .ok m) (hm0 : 0 ≤ m) :
    processGsd64 a vars raws stepsMax (some linear) interval kmax outfile file =
      processGsd a vars raws stepsMax (some linear) interval kmax outfile file := by
  unfold processGsd64 processGsd
  have h := (C11_exponential_sound raws stepsMax interval kmax linear m hm hm0 hi hl).2.1
  rcases hr : readGsd raws stepsMax (some linear) interval kmax with ⟨pairs, e⟩
  rw [hr] at h
  apply C117_forward_partial
  apply forward_of_pairwise
  obtain ⟨starts', hT, -⟩ := series_trace m linear interval kmax hl (by omega) hm0
  have hs := hT.sorted
  rw [List.pairwise_map] at hs
  have h2 := hs.sublist h
  rw [List.pairwise_map] at h2 ⊢
  exact h2.imp (fun hab => hab.le)

/-- A file that goes back from step 4 to 1: only the frames of steps 0 and 4 are handed out. -/
example : (readGsd (sample [0, 4, 1, 2, 4]) (some 4) (some 4) 4 1).1.map (fun p => p.2.timestep) =
    [0, 4] ∧ stepsToRead (sample [0, 4, 1, 2, 4]) (some 4) = .ok 4 := by
  constructor <;> decide

/-- **C117, frames before the first.**  Let the integer models return with a row for every frame of every
keyframe.  If some frame of a keyframe is before its first, `process_file` raises FloatingPointError, which
it catches nowhere.  Of the rows up to there only those of full caches are written: none for up to 8192
visits; tables other than "dynamics" are as before. -/
theorem C117_backward (a : Args) (vars : Except PyErr ν) (pairs : List (List ι × GFrame PData))
    (ending : Option PyErr) (file file0 : File (Rec ι (Dict Quantity Val) (Dict String ℤ) ν))
    (out : Option (List (Rec ι (Dict Quantity Val) (Dict String ℤ) ν)))
    (h : processFile (env a vars) (some (pairs, none)) true [] = (file0, .ok out))
    (hall : (rows file0 "dynamics").length = (visitsOf (env a vars) pairs).length)
    (hn : ¬ Forward (fun f => f.timestep) (visitsOf (env a vars) pairs)) :
    ∃ file', processFile (env64 a vars) (some (pairs, ending)) true file =
        (file', .error .floatingPointError) ∧
      ((visitsOf (env a vars) pairs).length ≤ 8192 → file' = file) ∧
      (file' = file ∨ rows file' "dynamics" <+: rows file0 "dynamics") ∧
      ∀ g, g ≠ "dynamics" → Dict.get? file' g = Dict.get? file g :=
  refused_run (env64_refuses a vars) pairs ending file file0 out h hall hn

/-- Times that go back from 4 to 2. -/
def backT : ℕ → ℤ := fun i => 4 - 2 * i

/-- The frames at those times. -/
noncomputable def backPairs : List (List ℕ × GFrame PData) :=
  (gframes backT (fun _ => tC.array) tS tO 1).map (fun f => ([0], f))

theorem back_visits : visitsOf (env tA (.ok ())) backPairs =
    (gframes backT (fun _ => tC.array) tS tO 1).map (fun f => (0, f)) := by
  simp [visitsOf, backPairs, gframes, List.range_succ, env, gf]

/-- The hypotheses of `C117_backward` can be met. -/
theorem back_meets : ∃ file0, processFile (env tA (.ok ())) (some (backPairs, none)) true [] =
      (file0, .ok none) ∧
    (rows file0 "dynamics").length = (visitsOf (env tA (.ok ())) backPairs).length ∧
    ¬ Forward (fun f => f.timestep) (visitsOf (env tA (.ok ())) backPairs) := by
  obtain ⟨file0, h⟩ := C94_any_size_partial (ι := ℕ) (by norm_num : 10 ≤ 10) tA ()
    (by simp [tA, exMol]) rfl (by norm_num : (0 : ℝ) < 2) rfl backT tC tS tO 1 0
    ([] : File (Rec ℕ (Dict Quantity Val) (Dict String ℤ) Unit))
  have hk : framesOf 0 (visitsOf (env tA (.ok ())) backPairs) =
      gframes backT (fun _ => tC.array) tS tO 1 := by
    rw [back_visits]
    simp [framesOf, gframes, List.range_succ]
  refine ⟨file0, h, ?_, ?_⟩
  · have h1 := (C91_true_motion (by norm_num) tA (.ok ()) tC rfl (by simp [tA, exMol])
      (by norm_num : (0 : ℝ) < 2) rfl h 0 rfl (t_follows 1) rfl hk).1
    have h2 : ((rows file0 "dynamics").filterMap (dynOf 0)).length ≤ (rows file0 "dynamics").length :=
      List.length_filterMap_le _ _
    obtain ⟨-, -, -, v, -, -, hrows, -, -⟩ := processFile_ok _ _ none [] file0 none h
    have h3 := coreRun_length (env tA (.ok ())) (visitsOf (env tA (.ok ())) backPairs) []
    have h4 : (visitsOf (env tA (.ok ())) backPairs).length = 2 := by
      rw [back_visits]; simp [gframes]
    have h5 : (rows file0 "dynamics").length ≤ 2 := by
      rw [hrows]
      split
      · simp [rows, Dict.get?]
      · exact h3.trans h4.le
    omega
  · intro hf
    have := hf 0 (gf backT (fun _ => tC.array) tS tO 0) (by rw [hk]; rfl)
      (gf backT (fun _ => tC.array) tS tO 1) (by rw [hk]; simp [gframes, List.range_succ])
    simp [gf, backT] at this

example : ∃ file', processFile (env64 tA (.ok ())) (some (backPairs, none)) true [] =
    (file', .error .floatingPointError) := by
  obtain ⟨file0, h1, h2, h3⟩ := back_meets
  obtain ⟨file', h, -⟩ := C117_backward tA (.ok ()) backPairs none [] file0 none h1 h2 h3
  exact ⟨file', h⟩

/-- **C117, relaxations alone.**  Outside of `process_file` too, `Relaxations.add` of a frame before the
first raises FloatingPointError, unless there are no relaxations; the motion is then already updated and no
time has been changed. -/
theorem C117_relaxations (r : Relx) (t : ℤ) (position : List V3) (orientation : Option (List Quat))
    (ht : t < r.init) (hm : (r.motion.add position orientation).2 = none) :
    r.add64 t position orientation = ({ r with motion := (r.motion.add position orientation).1 },
      if r.relax = [] then none else some .floatingPointError) := by
  rcases hadd : r.motion.add position orientation with ⟨m, e⟩
  rw [hadd] at hm
  simp only at hm
  subst hm
  unfold Relx.add64
  rw [hadd]
  simp only [sub64_error ht]
  rcases r with ⟨init, motion, num, wave, relax⟩
  cases relax with
  | nil => simp [Relax.addLoop]
  | cons a l => simp

/-- A tracker of one molecule, one relaxation, and a frame before the first. -/
example : ∃ r : Relx, r.relax ≠ [] ∧ (2 : ℤ) < r.init ∧
    (r.motion.add [(1, 0, 0)] none).2 = none :=
  ⟨⟨4, ⟨tC.box, [(0, 0, 0)], [(0, 0, 0)], [(0, 0, 0)], none⟩, 1, 2,
    [("tau_D", .first (.new 1 (some 1) .translation))]⟩, by simp, by norm_num, by
      simp [Motion.Tracked.add, Motion.transAdd, Motion.rotAdd, Motion.bcast, Motion.inplace]⟩

/-- **C117 is false of the code.**  Ten molecules in two frames at steps 4 and 2, read with the linear
reader: each frame alone can be analysed, the run ends in FloatingPointError. -/
theorem C117_refuted : ¬ AnyOrder := by
  intro h
  obtain ⟨file', h⟩ := h tA (by simp [tA, exMol]) rfl (by simp [tA])
    ((gframes backT (fun _ => tC.array) tS tO 1).map Except.ok) 4 1 (by intro r hr e he; simp_all)
    (by norm_num) (by norm_num) (by
      intro f hf
      simp only [readable, gframes, List.map_map, List.mem_filterMap, List.mem_map] at hf
      obtain ⟨r, ⟨i, -, rfl⟩, hr⟩ := hf
      simp only [Function.comp, Option.some.injEq] at hr
      subst hr
      exact t_usable i)
    ⟨gf backT (fun _ => tC.array) tS tO 0, rfl, by decide⟩
  have hr : readGsd ((gframes backT (fun _ => tC.array) tS tO 1).map Except.ok) none none 4 1 =
      (backPairs, none) := by
    simp [readGsd, gsdLinear, backPairs, gframes, List.range_succ, iterTrajectory, linearReader,
      updateIndex, gf, backT]
  unfold processGsd64 at h
  rw [hr] at h
  obtain ⟨file0, h1, h2, h3⟩ := back_meets
  obtain ⟨file', h4, -⟩ := C117_backward tA (.ok ()) backPairs none [] file0 none h1 h2 h3
  rw [h4] at h
  cases h

end Verif.Pipeline
