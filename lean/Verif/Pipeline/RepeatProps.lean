import Verif.Gsd.RepeatLemmas
import Verif.Gsd.Props
import Verif.Pipeline.Model
/-!
# C152: frames that have been written more than once
-/

namespace Verif.Pipeline

open Verif.Motion Verif.Dynamics Verif.Gsd Verif.StepSize Verif.Process Verif.Cache

variable {α ν : Type}

/-- The full statement: a file in which frames are repeated is read as the one without. -/
def RepeatsHarmless (linear : Option Int) : Prop :=
  ∀ (raws raws' : List (Raw Unit)) (m interval kmax : Int), OnlyCorrupt raws → OnlyCorrupt raws' →
    Increasing (readable raws) → Repeats (readable raws) (readable raws') → 0 ≤ m → 1 ≤ interval →
    readGsd raws' (some m) linear interval kmax = readGsd raws (some m) linear interval kmax

/-- **C152, proved part.**  The full statement is `RepeatsHarmless`.  With exponential steps it holds of files in which
no step before the end is missing: the reader yields the same frames under the same keyframes, namely the first one of
each step, and nothing that `process_file` does is different.  Missing: files with missing steps, of which it is
false (`C152_missing_steps_refuted`), and linear steps (`C152_linear_refuted`). -/
theorem C152_repeats_partial (raws raws' : List (Raw PData)) (m interval kmax linear : Int)
    (hc : OnlyCorrupt raws) (hc' : OnlyCorrupt raws') (hinc : Increasing (readable raws))
    (hrep : Repeats (readable raws) (readable raws')) (hm0 : 0 ≤ m) (hi : 1 ≤ interval) (hl : 1 ≤ linear)
    (h : ∀ s ∈ (seriesList m linear interval kmax).map Prod.fst,
      (∃ f ∈ readable raws, s ≤ f.timestep) → ∃ f ∈ readable raws, f.timestep = s) :
    readGsd raws' (some m) (some linear) interval kmax = readGsd raws (some m) (some linear) interval kmax ∧
    ∀ (a : Args) (vars : Except PyErr ν) (outfile : Bool)
      (file : Cache.File (Process.Rec ℕ (Dict Quantity Val) (Dict String ℤ) ν)),
      processGsd a vars raws' (some m) (some linear) interval kmax outfile file =
        processGsd a vars raws (some m) (some linear) interval kmax outfile file := by
  obtain ⟨starts', hT, _⟩ := series_trace m linear interval kmax hl (by omega) hm0
  have hsort : (seriesList m linear interval kmax).Pairwise (fun a b => a.1 < b.1) := by
    have := hT.sorted
    rwa [List.pairwise_map] at this
  have e : readGsd raws' (some m) (some linear) interval kmax =
      readGsd raws (some m) (some linear) interval kmax := by
    simp only [readGsd, gsdExponential, stepsToRead, iterTrajectory_eq raws hc, iterTrajectory_eq raws' hc']
    exact (exp_repeats m hrep hinc).1 _ hsort (fun s hs => h s.1 (List.mem_map.2 ⟨s, hs, rfl⟩))
  refine ⟨e, fun a vars outfile file => ?_⟩
  unfold processGsd
  rw [e]

/-- A simulation that stopped after step 2 and was continued, writing step 2 once more. -/
example (d d' : PData) :
    Repeats (readable [.ok ⟨0, d⟩, .ok ⟨1, d⟩, .ok ⟨2, d⟩, .ok ⟨3, d⟩])
      (readable [.ok ⟨0, d⟩, .ok ⟨1, d⟩, .ok ⟨2, d⟩, .ok ⟨2, d'⟩, .ok ⟨3, d⟩]) ∧
    ∀ s ∈ (seriesList 3 10 100 1).map Prod.fst,
      (∃ f ∈ readable ([.ok ⟨0, d⟩, .ok ⟨1, d⟩, .ok ⟨2, d⟩, .ok ⟨3, d⟩] : List (Raw PData)), s ≤ f.timestep) →
      ∃ f ∈ readable ([.ok ⟨0, d⟩, .ok ⟨1, d⟩, .ok ⟨2, d⟩, .ok ⟨3, d⟩] : List (Raw PData)), f.timestep = s := by
  refine ⟨?_, ?_⟩
  · exact .cons _ [] (by simp) (.cons _ [] (by simp) (.cons _ [⟨2, d'⟩] (by simp) (.cons _ [] (by simp) .nil)))
  · have hs : (seriesList 3 10 100 1).map Prod.fst = [0, 1, 2, 3] := by decide
    rw [hs]
    intro s hs _
    simp only [List.mem_cons, List.not_mem_nil, or_false] at hs
    rcases hs with rfl | rfl | rfl | rfl <;> simp [readable]

/-- **C152 refuted, missing steps.**  The steps 0, 2 and 3 are read in full; when 0 is there twice, the reader takes the
second one for a frame off the series, goes on to 2 looking for 1, and drops it. -/
theorem C152_missing_steps_refuted : ¬ RepeatsHarmless (some 10) := by
  intro h
  have := h (sample [0, 2, 3]) (sample [0, 0, 2, 3]) 3 100 1 (onlyCorrupt_sample _) (onlyCorrupt_sample _)
    (by unfold Increasing; decide)
    (.cons ⟨0, ()⟩ [⟨0, ()⟩] (by simp) (.cons _ [] (by simp) (.cons _ [] (by simp) .nil))) (by decide) (by decide)
  revert this
  decide

/-- **C152 refuted, linear steps.**  A frame at a multiple of the interval that is there twice starts two
keyframes. -/
theorem C152_linear_refuted : ¬ RepeatsHarmless none := by
  intro h
  have := h (sample [0, 1]) (sample [0, 0, 1]) 3 100 1 (onlyCorrupt_sample _) (onlyCorrupt_sample _)
    (by unfold Increasing; decide)
    (.cons ⟨0, ()⟩ [⟨0, ()⟩] (by simp) (.cons _ [] (by simp) .nil)) (by decide) (by decide)
  revert this
  decide

/-- What the readers do in these two cases. -/
example : (readGsd (sample [0, 0, 2, 3]) (some 3) (some 10) 100 1).1.map (fun p => (p.1, p.2.timestep)) =
      [([0], 0), ([0], 3)] ∧
    (readGsd (sample [0, 0, 1]) (some 3) none 100 1).1.map (fun p => (p.1, p.2.timestep)) =
      [([0], 0), ([0, 1], 0), ([0, 1], 1)] := by decide

end Verif.Pipeline
