import Verif.Gsd.LostProps
import Verif.Pipeline.ReaderProps
/-!
# C162 for the keyframes of `process_file`
-/

namespace Verif.Pipeline

open Verif.Motion Verif.Dynamics Verif.Relax Verif.Gsd Verif.Process Verif.Cache Verif.StepSize

open scoped List

variable {ν : Type}

open Classical in
/-- **C162, keyframes.**  The frames with molecules on the series of keyframe `k` that `process_file` does
not use for it are at most twice as many as the frames off the series of the file, and at most twice as many
as the steps that are missing. -/
theorem C162_keyframe (a : Args) (vars : Except PyErr ν) (raws : List (Raw PData))
    (stepsMax : Option Int) (interval kmax linear m : Int)
    (hm : stepsToRead raws stepsMax = .ok m) (hc : OnlyCorrupt raws)
    (hinc : Increasing (readable raws)) (hm0 : 0 ≤ m) (hi : 1 ≤ interval) (hl : 1 ≤ linear) (k : ℕ) :
    let steps := (seriesList m linear interval kmax).map Prod.fst
    let used := framesOf k (visitsOf (env a vars) (readGsd raws stepsMax (some linear) interval kmax).1)
    let wanted := (readable raws).filter (fun f => decide (f.data.position ≠ [] ∧
      ∃ st, firstStep (seriesList m linear interval kmax) k = some st ∧ st ≤ f.timestep ∧
        Wants m linear st f.timestep))
    used <+ wanted ∧ wanted.length ≤ used.length +
      2 * min (offSeries (readable raws) steps m).length (missingSteps (readable raws) steps).length := by
  intro steps used wanted
  have h1 := C162_frames raws stepsMax interval kmax linear m hm hc hinc hm0 hi hl
  obtain ⟨e1, e3, e2⟩ := C11_exponential_sound raws stepsMax interval kmax linear m hm hm0 hi hl
  set out := (readGsd raws stepsMax (some linear) interval kmax).1 with hout
  simp only at h1 e1
  set p : GFrame PData → Bool := fun f => decide (f.data.position ≠ [] ∧
      ∃ st, firstStep (seriesList m linear interval kmax) k = some st ∧ st ≤ f.timestep ∧
        Wants m linear st f.timestep) with hp
  have hused : used = (out.map Prod.snd).filter p := by
    have := framesOf_filter (env a vars) k out (fun p hp => (e2 p hp).2.2.1)
      (fun f => ∃ st, firstStep (seriesList m linear interval kmax) k = some st ∧ st ≤ f.timestep ∧
        Wants m linear st f.timestep) (fun p hp => (e2 p hp).2.2.2 k)
    rw [show used = _ from this]
    apply List.filter_congr
    intro f _
    have hn : (env a vars).numPos f ≠ 0 ↔ f.data.position ≠ [] := not_congr List.length_eq_zero_iff
    rw [decide_eq_decide.2 (and_congr hn Iff.rfl)]
  have hon : wanted = (onSeries (readable raws) steps).filter p := by
    unfold onSeries
    rw [List.filter_filter]
    apply List.filter_congr
    intro f _
    change p f = _
    by_cases hP : f.data.position ≠ [] ∧
        ∃ st, firstStep (seriesList m linear interval kmax) k = some st ∧ st ≤ f.timestep ∧
          Wants m linear st f.timestep
    · obtain ⟨-, st, g1, -, g3⟩ := hP
      have := (C06_series_is_union m linear interval kmax hm0 hl hi f.timestep).2 ⟨k, st, g1, g3⟩
      rw [decide_eq_true (show f.timestep ∈ steps from this), Bool.and_true]
    · rw [show p f = false from decide_eq_false hP, Bool.false_and]
  have hsub : out.map Prod.snd <+ onSeries (readable raws) steps := by
    have := e1.filter (fun f => decide (f.timestep ∈ steps))
    rwa [List.filter_eq_self.2] at this
    intro f hf
    obtain ⟨q, hq, rfl⟩ := List.mem_map.1 hf
    refine decide_eq_true ?_
    have hmem : (q.2.timestep, q.1) ∈ seriesList m linear interval kmax :=
      e3.subset (List.mem_map.2 ⟨q, hq, rfl⟩)
    exact List.mem_map.2 ⟨_, hmem, rfl⟩
  refine ⟨by rw [hused, hon]; exact hsub.filter p, ?_⟩
  have l1 := (hsub.filter (fun f => !p f)).length_le
  have l2 := List.length_eq_length_filter_add (l := out.map Prod.snd) p
  have l3 := List.length_eq_length_filter_add (l := onSeries (readable raws) steps) p
  rw [List.length_map] at l2
  rw [hused, hon]
  change (onSeries (readable raws) steps).length ≤ out.length +
    2 * min (offSeries (readable raws) steps m).length (missingSteps (readable raws) steps).length at h1
  omega

/-- The hypotheses for a file where frame 5 is off the series of keyframe 0 (0, 1, 10, 20, with one linear
step): the frame at 20 is lost. -/
example (d : PData) : let raws : List (Raw PData) := [.ok ⟨0, d⟩, .ok ⟨1, d⟩, .ok ⟨5, d⟩, .ok ⟨20, d⟩]
    stepsToRead raws (some 20) = .ok 20 ∧ OnlyCorrupt raws ∧ Increasing (readable raws) ∧
    (readGsd raws (some 20) (some 1) 100 1).1.map (fun p => p.2.timestep) = [0, 1] := by
  refine ⟨rfl, ?_, ?_, rfl⟩
  · intro r hr e he
    subst he
    simp at hr
  · simp [readable, Increasing]

end Verif.Pipeline
