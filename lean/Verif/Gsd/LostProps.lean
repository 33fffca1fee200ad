import Verif.Gsd.LostSpec
import Verif.Gsd.LostLemmas
import Verif.Gsd.Props
/-!
# C162: how many frames are lost where frames and steps do not go with each other
-/

namespace Verif.Gsd

open scoped List
open Verif.StepSize

variable {α : Type}

/-- **C162.**  The frames on the series that the exponential reader does not hand out are at most twice
as many as the frames off the series, and at most twice as many as the steps that are missing.  (What it
hands out is on the series, C11; so nothing is lost if there are none of the one or of the other, C12.) -/
theorem C162_frames (raws : List (Raw α)) (stepsMax : Option Int) (interval kmax linear m : Int)
    (hm : stepsToRead raws stepsMax = .ok m) (hc : OnlyCorrupt raws)
    (hinc : Increasing (readable raws)) (hm0 : 0 ≤ m) (hi : 1 ≤ interval) (hl : 1 ≤ linear) :
    let steps := (seriesList m linear interval kmax).map Prod.fst
    let out := (readGsd raws stepsMax (some linear) interval kmax).1
    (onSeries (readable raws) steps).length ≤
      out.length + 2 * min (offSeries (readable raws) steps m).length
        (missingSteps (readable raws) steps).length := by
  intro steps out
  obtain ⟨starts', hT, _⟩ := series_trace m linear interval kmax hl (by omega) hm0
  have hsort : steps.Pairwise (· < ·) := hT.sorted
  have hle : ∀ s ∈ seriesList m linear interval kmax, s.1 ≤ m := fun s hs =>
    (hT.range s.1 (List.mem_map.2 ⟨s, hs, rfl⟩)).2.2
  have hout : out = (expReader m none (readable raws) (seriesList m linear interval kmax)).1 := by
    simp only [out, readGsd, gsdExponential, hm, iterTrajectory_eq raws hc]
  set times := (readable raws).map GFrame.timestep with htimes
  have hts : times.Pairwise (· < ·) := by rw [htimes, List.pairwise_map]; exact hinc
  obtain ⟨h1, h2⟩ := exp_lost m none _ (readable raws) (seriesList m linear interval kmax) le_rfl hts
    hsort hle
  rw [← hout, ← htimes] at h1 h2
  change common times steps ≤ out.length + 2 * between times steps + lag times steps at h1
  change common times steps ≤ out.length + 2 * between steps times + lag steps times at h2
  -- the frames and steps as sets
  have hnd : times.Nodup := hts.imp (fun h => by omega)
  have hnd' : steps.Nodup := hsort.imp (fun h => by omega)
  have hcount : ∀ (p : Int → Prop) [DecidablePred p],
      ((readable raws).filter (fun f => decide (p f.timestep))).length =
        (times.toFinset.filter p).card := by
    intro p _
    have e1 : ((readable raws).filter (fun f => decide (p f.timestep))).length =
        (times.filter (fun t => decide (p t))).length := by
      rw [htimes, List.filter_map, List.length_map]
      rfl
    rw [e1, ← List.toFinset_card_of_nodup (hnd.filter _), List.toFinset_filter]
    congr 1
    ext x
    simp
  have e1 : (onSeries (readable raws) steps).length = common times steps := by
    unfold onSeries common
    rw [hcount (· ∈ steps)]
    congr 1
    ext x
    simp
  have e2 : (offSeries (readable raws) steps m).length =
      (times.toFinset.filter (fun t => t ≤ m ∧ t ∉ steps)).card := by
    unfold offSeries
    rw [hcount (fun t => t ≤ m ∧ t ∉ steps)]
  have e3 : (missingSteps (readable raws) steps).length =
      (steps.toFinset.filter (fun s => s ∉ times ∧ ∃ t ∈ times, s < t)).card := by
    unfold missingSteps
    rw [← List.toFinset_card_of_nodup (hnd'.filter _), List.toFinset_filter]
    congr 1
    ext x
    simp [htimes]
  have hoff : (times.toFinset.filter (fun t => t ∉ steps ∧ ∃ s ∈ steps, t < s)).card ≤
      (times.toFinset.filter (fun t => t ≤ m ∧ t ∉ steps)).card := by
    apply Finset.card_le_card
    intro x hx
    simp only [Finset.mem_filter, List.mem_toFinset] at hx ⊢
    obtain ⟨g1, g2, s, g3, g4⟩ := hx
    obtain ⟨y, hy, rfl⟩ := List.mem_map.1 g3
    have := hle y hy
    exact ⟨g1, by omega, g2⟩
  have b1 := between_begin (b := steps) hts
  have b2 := between_begin (b := times) hsort
  omega

/-- The hypotheses for a file where frame 7 is off the series, step 10 is missing and frame 30 cannot be
read. -/
example : let raws := sample [0, 1, 2, 3, 4, 7, 20] ++ [.error .runtimeError] ++ sample [40]
    stepsToRead raws none = .ok 40 ∧ OnlyCorrupt raws ∧ Increasing (readable raws) ∧
    (offSeries (readable raws) ((seriesList 40 4 100 1).map Prod.fst) 40).length = 1 ∧
    missingSteps (readable raws) ((seriesList 40 4 100 1).map Prod.fst) = [10, 30] ∧
    (readGsd raws none (some 4) 100 1).1.map (fun p => p.2.timestep) = [0, 1, 2, 3, 4, 40] := by
  refine ⟨by decide, ?_, ?_, by decide, by decide, by decide⟩
  · intro r hr e he
    subst he
    simpa [sample] using hr
  · unfold Increasing
    decide

/-- Both bounds are attained: two frames are lost with one step missing (10; frames 7 and 25 are off the
series), and two with one frame off the series (17; steps 10 and 30 are missing). -/
theorem C162_attained :
    (∃ raws : List (Raw Unit), OnlyCorrupt raws ∧ Increasing (readable raws) ∧
      (missingSteps (readable raws) ((seriesList 40 4 100 1).map Prod.fst)).length = 1 ∧
      (onSeries (readable raws) ((seriesList 40 4 100 1).map Prod.fst)).length =
        (readGsd raws (some 40) (some 4) 100 1).1.length + 2) ∧
    ∃ raws : List (Raw Unit), OnlyCorrupt raws ∧ Increasing (readable raws) ∧
      (offSeries (readable raws) ((seriesList 40 4 100 1).map Prod.fst) 40).length = 1 ∧
      (onSeries (readable raws) ((seriesList 40 4 100 1).map Prod.fst)).length =
        (readGsd raws (some 40) (some 4) 100 1).1.length + 2 :=
  ⟨⟨sample [0, 1, 2, 3, 4, 7, 20, 25, 30, 40], onlyCorrupt_sample _, by unfold Increasing; decide,
    by decide, by decide⟩,
   ⟨sample [0, 1, 2, 3, 4, 17, 20, 40], onlyCorrupt_sample _, by unfold Increasing; decide,
    by decide, by decide⟩⟩

end Verif.Gsd
