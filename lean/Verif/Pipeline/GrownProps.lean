import Verif.Pipeline.GrownLemmas
/-!
# A file that has grown, read with exponential steps up to its last frame, C97
-/

namespace Verif.Pipeline

open Verif.Gsd Verif.StepSize

variable {α : Type}

/-- **C97, exponential steps without `steps_max`.**  Each keyframe gets the same frames before the last one
of the shorter file, and all that it gets from the longer one beyond them comes with or after that frame:
only the last frame may be given to a keyframe of the shorter file alone. -/
theorem C97_last (raws more : List (Raw α)) (m m' interval kmax linear : Int) (hc : OnlyCorrupt raws)
    (hc' : OnlyCorrupt more) (hinc : Increasing (readable (raws ++ more)))
    (hm : getNumSteps raws = .ok m) (hm' : getNumSteps (raws ++ more) = .ok m') (h0 : 0 ≤ m)
    (hi : 1 ≤ interval) (hl : 1 ≤ linear) (k : ℕ) :
    (given k (readGsd raws none (some linear) interval kmax).1).filter (fun f => decide (f.timestep < m)) =
      (given k (readGsd (raws ++ more) none (some linear) interval kmax).1).filter
        (fun f => decide (f.timestep < m)) ∧
    ∀ f ∈ given k (readGsd raws none (some linear) interval kmax).1, f.timestep ≤ m := by
  have happ : readable (raws ++ more) = readable raws ++ readable more := by
    unfold readable; rw [List.filterMap_append]
  obtain ⟨fs, f, hfs, hf⟩ := numSteps_readable raws m hm
  obtain ⟨fs', f', hfs', hf'⟩ := numSteps_readable (raws ++ more) m' hm'
  have hmore : ∀ g ∈ readable more, m < g.timestep := by
    intro g hg
    unfold Increasing at hinc
    rw [happ, List.pairwise_append] at hinc
    have := hinc.2.2 f (by rw [hfs]; simp) g hg
    omega
  have hmm : m ≤ m' := by
    have hmem : f ∈ fs' ++ [f'] := by
      rw [← hfs', happ, hfs]; simp
    unfold Increasing at hinc
    rw [hfs', List.pairwise_append] at hinc
    rcases List.mem_append.1 hmem with h | h
    · have := hinc.2.2 f h f' (by simp)
      omega
    · obtain rfl := List.mem_singleton.1 h
      omega
  have e1 : readGsd raws none (some linear) interval kmax = readGsd raws (some m) (some linear) interval kmax := by
    simp only [readGsd, gsdExponential, stepsToRead, hm]
  have e2 : readGsd (raws ++ more) none (some linear) interval kmax =
      readGsd (raws ++ more) (some m') (some linear) interval kmax := by
    simp only [readGsd, gsdExponential, stepsToRead, hm']
  obtain ⟨c1, c2⟩ := C154_exponential raws m m' interval kmax linear h0 hmm hi hl k
  rw [e1, e2]
  refine ⟨?_, c2⟩
  rw [c1]
  have hcc : OnlyCorrupt (raws ++ more) := by
    intro r hr e he
    rcases List.mem_append.1 hr with h | h
    · exact hc r h e he
    · exact hc' r h e he
  obtain ⟨r, hr1, hr2⟩ := (exp_goesOn m' none (readable more) (readable raws)).1
    (seriesList m' linear interval kmax)
  have e3 : (readGsd (raws ++ more) (some m') (some linear) interval kmax).1 =
      (readGsd raws (some m') (some linear) interval kmax).1 ++ r := by
    simp only [readGsd, gsdExponential, stepsToRead, iterTrajectory_eq raws hc, iterTrajectory_eq _ hcc, happ]
    exact hr1
  rw [e3]
  unfold given
  rw [List.filter_append, List.map_append, List.filter_append]
  have : (List.filter (fun f : GFrame α => decide (f.timestep < m))
      (List.map Prod.snd (List.filter (fun p => decide (k ∈ p.1)) r))) = [] := by
    rw [List.filter_eq_nil_iff]
    intro g hg
    obtain ⟨p, hp, rfl⟩ := List.mem_map.1 hg
    have := hmore p.2 (hr2.subset (List.mem_map_of_mem (f := Prod.snd) (List.mem_of_mem_filter hp)))
    simpa using this.le
  rw [this, List.append_nil]

/-- The file of the refutation: the frame at step 5 is given while it is the last one, those before it in
both cases. -/
example : getNumSteps (sample [0, 1, 5]) = .ok 5 ∧ getNumSteps (sample [0, 1, 5] ++ sample [10]) = .ok 10 ∧
    (given 0 (readGsd (sample [0, 1, 5]) none (some 1) 100 1).1).map (·.timestep) = [0, 1, 5] ∧
    (given 0 (readGsd (sample [0, 1, 5] ++ sample [10]) none (some 1) 100 1).1).map (·.timestep) = [0, 1, 10] ∧
    Increasing (readable (sample [0, 1, 5] ++ sample [10])) := by
  refine ⟨by decide, by decide, by decide, by decide, by unfold Increasing; decide⟩

end Verif.Pipeline
