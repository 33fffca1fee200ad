import Verif.Pipeline.LaterSpec
import Verif.Pipeline.Model
import Verif.Process.MapLemmas
import Verif.Gsd.Spec
/-!
# Lemmas: counters of steps that start elsewhere
-/

namespace Verif.Pipeline

open Verif.Motion Verif.Dynamics Verif.Gsd Verif.Process

variable {α ν : Type}

/-- `Dynamics` made later. -/
def laterDyn (c : ℤ) (d : Dyn) : Dyn := { d with timestep := d.timestep + c }

/-- `Relaxations` made later. -/
def laterRelx (c : ℤ) (r : Relx) : Relx := { r with init := r.init + c }

theorem laterDyn_delta (c : ℤ) (d : Dyn) (t : ℤ) : (laterDyn c d).timeDelta (t + c) = d.timeDelta t := by
  unfold laterDyn Dyn.timeDelta
  simp only
  ring

theorem laterDyn_quantities (argsort : List ℝ → List ℕ) (c : ℤ) (d : Dyn) (t : ℤ) (sc : Bool) :
    (laterDyn c d).quantities argsort (t + c) sc = d.quantities argsort t sc := by
  unfold Dyn.quantities
  rw [laterDyn_delta]
  rfl

/-- The trackers do not see where the counter started. -/
theorem alike_later (a : Args) (vars : Except PyErr ν) (c : ℤ) :
    Alike (env a vars) (later c) (laterDyn c) (laterRelx c) where
  numPos _ := rfl
  newDyn f := by
    simp only [env, Dyn.new, later]
    split_ifs
    · rfl
    · cases createFreudBox f.data.box (decide (a.mol.dimensions = 2)) with
      | error e => rfl
      | ok b =>
        simp only
        cases Tracked.new b f.data.position f.data.orientation <;> rfl
  newRelax f := by
    simp only [env, Relx.new, later]
    cases createFreudBox f.data.box (decide (a.mol.dimensions = 2)) with
    | error e => rfl
    | ok b =>
      simp only
      cases Tracked.new b f.data.position f.data.orientation with
      | error e => rfl
      | ok m =>
        simp only
        cases waveOf a.calcWave b f.data.position a.wave with
        | error e => rfl
        | ok k =>
          simp only
          split_ifs
          · rfl
          · rcases Relax.setMolRelax f.data.position.length [] (Relax.defaults (Real.pi / (2 * k)) Real.pi)
              with ⟨d, _ | e⟩ <;> rfl
  custom set hs r := by
    simp only [env, Option.map_eq_some_iff] at hs
    obtain ⟨defs, _, rfl⟩ := hs
    rfl
  computeAll d f := by
    show (laterDyn c d).computeAll a.argsort (f.timestep + c) f.data.position f.data.orientation a.scattering =
      (laterDyn c (d.computeAll a.argsort f.timestep f.data.position f.data.orientation a.scattering).1,
        (d.computeAll a.argsort f.timestep f.data.position f.data.orientation a.scattering).2)
    unfold Dyn.computeAll
    have e : (laterDyn c d).add f.data.position f.data.orientation =
        (laterDyn c (d.add f.data.position f.data.orientation).1, (d.add f.data.position f.data.orientation).2) := rfl
    rw [e]
    rcases d.add f.data.position f.data.orientation with ⟨d', _ | e⟩
    · simp only
      rw [laterDyn_quantities]
    · rfl
  relaxAdd r f := by
    show (laterRelx c r).add (f.timestep + c) f.data.position f.data.orientation =
      (laterRelx c (r.add f.timestep f.data.position f.data.orientation).1,
        (r.add f.timestep f.data.position f.data.orientation).2)
    unfold Relx.add
    have e : (laterRelx c r).motion = r.motion := rfl
    rw [e]
    rcases r.motion.add f.data.position f.data.orientation with ⟨m, _ | e⟩
    · simp only
      have e2 : f.timestep + c - (laterRelx c r).init = f.timestep - r.init := by
        unfold laterRelx
        simp only
        ring
      rw [e2]
      rfl
    · rfl
  summary _ := rfl

theorem iter_later (c : ℤ) : ∀ raws : List (Raw α),
    iterTrajectory (laterFile c raws) = ((iterTrajectory raws).1.map (later c), (iterTrajectory raws).2)
  | [] => rfl
  | .ok f :: raws => by
    have ih := iter_later c raws
    unfold laterFile at ih ⊢
    simp only [List.map_cons, Except.map, iterTrajectory, ih]
  | .error e :: raws => by
    have ih := iter_later c raws
    unfold laterFile at ih ⊢
    simp only [List.map_cons, Except.map]
    cases e <;> first | rfl | (simp only [iterTrajectory, ih])

theorem readable_later (c : ℤ) (raws : List (Raw α)) :
    readable (laterFile c raws) = (readable raws).map (later c) := by
  unfold readable laterFile
  rw [List.filterMap_map, List.map_filterMap]
  congr 1
  funext r
  cases r <;> rfl

theorem corrupt_later (c : ℤ) {raws : List (Raw α)} (h : OnlyCorrupt raws) : OnlyCorrupt (laterFile c raws) := by
  unfold OnlyCorrupt laterFile at *
  intro r' hr' e he
  obtain ⟨r, hr, rfl⟩ := List.mem_map.1 hr'
  cases r with
  | ok f => cases he
  | error e' =>
    injection he with he
    subst he
    exact h _ hr _ rfl

theorem increasing_later (c : ℤ) {fs : List (GFrame α)} (h : Increasing fs) : Increasing (fs.map (later c)) := by
  unfold Increasing at *
  rw [List.pairwise_map]
  refine h.imp ?_
  intro a b hab
  simp only [later]
  omega

theorem linear_later {interval c : ℤ} (hc : interval ∣ c) (stepsMax : Option ℤ) (kmax : ℤ) (fe : Option PyErr) :
    ∀ (fs : List (GFrame α)) (il : List ℕ),
    linearReader (stepsMax.map (· + c)) interval kmax fe (fs.map (later c)) il =
      ((linearReader stepsMax interval kmax fe fs il).1.map (fun p => (p.1, later c p.2)),
        (linearReader stepsMax interval kmax fe fs il).2)
  | [], _ => rfl
  | f :: fs, il => by
    have e1 : updateIndex interval kmax (f.timestep + c) il = updateIndex interval kmax f.timestep il := by
      unfold updateIndex
      have e : (f.timestep + c) % interval = 0 ↔ f.timestep % interval = 0 := by
        rw [← Int.dvd_iff_emod_eq_zero, ← Int.dvd_iff_emod_eq_zero]
        exact (Int.dvd_add_left hc)
      simp only [e]
    have e2 : (stepsMax.map (· + c)).any (fun m => decide (f.timestep + c > m)) =
        stepsMax.any (fun m => decide (f.timestep > m)) := by
      cases stepsMax with
      | none => rfl
      | some m => simp
    simp only [List.map_cons, linearReader, later]
    by_cases h0 : interval = 0
    · simp [h0]
    · simp only [h0, if_false]
      rw [e1, e2]
      by_cases h1 : stepsMax.any (fun m => decide (f.timestep > m)) = true
      · simp [h1]
      · simp only [h1]
        have ih := linear_later hc stepsMax kmax fe fs (updateIndex interval kmax f.timestep il)
        rw [ih]
        rfl

/-- The reader for linear steps does the same from the start of an interval on. -/
theorem readLinear_later {interval c : ℤ} (hc : interval ∣ c) (raws : List (Raw α)) (stepsMax : Option ℤ) (kmax : ℤ) :
    readGsd (laterFile c raws) (stepsMax.map (· + c)) none interval kmax =
      ((readGsd raws stepsMax none interval kmax).1.map (fun p => (p.1, later c p.2)),
        (readGsd raws stepsMax none interval kmax).2) := by
  simp only [readGsd, gsdLinear]
  rw [iter_later]
  exact linear_later hc stepsMax kmax _ _ _

end Verif.Pipeline
