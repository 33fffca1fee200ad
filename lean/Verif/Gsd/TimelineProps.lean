import Verif.Gsd.TimelineLemmas
import Verif.Gsd.ErrorProps
/-!
# C178: which frames the exponential reader hands out
-/

namespace Verif.Gsd

open Verif.StepSize
open scoped List

variable {α : Type}

/-- **C178.**  The times at which the exponential reader hands out a frame are the common times of the file
and the series at which nothing is held, going along the time line from the start. -/
theorem C178_taken (raws : List (Raw α)) (stepsMax : Option Int) (interval kmax linear m : Int)
    (hm : stepsToRead raws stepsMax = .ok m) (hc : OnlyCorrupt raws)
    (hinc : Increasing (readable raws)) (hm0 : 0 ≤ m) (hi : 1 ≤ interval) (hl : 1 ≤ linear) :
    (readGsd raws stepsMax (some linear) interval kmax).1.map (fun p => p.2.timestep) =
      taken .level (timeline ((readable raws).map GFrame.timestep)
        ((seriesList m linear interval kmax).map Prod.fst)) := by
  obtain ⟨starts', hT, _⟩ := series_trace m linear interval kmax hl (by omega) hm0
  have hle : ∀ s ∈ seriesList m linear interval kmax, s.1 ≤ m := fun s hs =>
    (hT.range s.1 (List.mem_map.2 ⟨s, hs, rfl⟩)).2.2
  simp only [readGsd, gsdExponential, hm, iterTrajectory_eq raws hc]
  exact (reader_taken m none _ (readable raws) (seriesList m linear interval kmax) le_rfl
    (by rw [List.pairwise_map]; exact hinc) hT.sorted hle).1

/-- The hypotheses and both sides, where 7 is off the series, the steps 10 and 30 are missing, and 20 is lost. -/
example : let raws := sample [0, 1, 2, 3, 4, 7, 20, 40, 100, 101]
    stepsToRead raws none = .ok 101 ∧ OnlyCorrupt raws ∧ Increasing (readable raws) ∧
    (seriesList 101 4 100 2).map Prod.fst = [0, 1, 2, 3, 4, 10, 20, 30, 40, 100, 101] ∧
    (readGsd raws none (some 4) 100 2).1.map (fun p => p.2.timestep) = [0, 1, 2, 3, 4, 40, 100, 101] :=
  ⟨by decide, onlyCorrupt_sample _, by unfold Increasing; decide, by decide, by decide⟩

/-- On the time line: after the frame 7 the step 10 is held, and the frame 20 is used up with it. -/
example : taken .level [(4, .both), (7, .frame), (10, .step), (20, .both), (30, .step), (40, .both)] = [4, 40] :=
  rfl

/-- **C12, exactly.**  All the readable frames on the series are handed out iff nothing is held at any common
time. -/
theorem C12_exactly (raws : List (Raw α)) (stepsMax : Option Int) (interval kmax linear m : Int)
    (hm : stepsToRead raws stepsMax = .ok m) (hc : OnlyCorrupt raws)
    (hinc : Increasing (readable raws)) (hm0 : 0 ≤ m) (hi : 1 ≤ interval) (hl : 1 ≤ linear) :
    (∀ f ∈ readable raws, f.timestep ∈ (seriesList m linear interval kmax).map Prod.fst →
      f ∈ (readGsd raws stepsMax (some linear) interval kmax).1.map Prod.snd) ↔
    NoneHeld .level (timeline ((readable raws).map GFrame.timestep)
      ((seriesList m linear interval kmax).map Prod.fst)) := by
  obtain ⟨starts', hT, _⟩ := series_trace m linear interval kmax hl (by omega) hm0
  have hft : ((readable raws).map GFrame.timestep).Pairwise (· < ·) := by rw [List.pairwise_map]; exact hinc
  rw [← taken_all, ← C178_taken raws stepsMax interval kmax linear m hm hc hinc hm0 hi hl,
    timeline_both _ _ _ le_rfl hft hT.sorted]
  have hsub : (readGsd raws stepsMax (some linear) interval kmax).1.map Prod.snd <+ readable raws := by
    simp only [readGsd, gsdExponential, hm, iterTrajectory_eq raws hc]
    exact ((exp_sublist m none (readable raws)).1 _).1
  have hpairs : (readGsd raws stepsMax (some linear) interval kmax).1.map (fun p => (p.2.timestep, p.1)) <+
      seriesList m linear interval kmax := by
    simp only [readGsd, gsdExponential, hm, iterTrajectory_eq raws hc]
    exact ((exp_sublist m none (readable raws)).1 _).2
  generalize readGsd raws stepsMax (some linear) interval kmax = r at hsub hpairs ⊢
  generalize seriesList m linear interval kmax = ss at *
  have htimes : (r.1.map (fun p => p.2.timestep)) = (r.1.map Prod.snd).map GFrame.timestep := by
    rw [List.map_map]; rfl
  have hout : (r.1.map (fun p => p.2.timestep)).Pairwise (· < ·) := by
    rw [htimes]; exact hft.sublist (hsub.map _)
  have hfil : (((readable raws).map GFrame.timestep).filter (fun t => decide (t ∈ ss.map Prod.fst))).Pairwise
      (· < ·) := hft.sublist List.filter_sublist
  constructor
  · intro h
    apply List.Perm.eq_of_pairwise (le := (· < ·)) (fun a b _ _ h1 h2 => by omega) hout hfil
    rw [List.perm_ext_iff_of_nodup (hout.imp (fun h => by omega)) (hfil.imp (fun h => by omega))]
    intro t
    constructor
    · intro ht
      obtain ⟨p, hp, rfl⟩ := List.mem_map.1 ht
      refine List.mem_filter.2 ⟨List.mem_map_of_mem (hsub.subset (List.mem_map_of_mem hp)), ?_⟩
      have := hpairs.subset (List.mem_map_of_mem hp)
      exact decide_eq_true (List.mem_map.2 ⟨_, this, rfl⟩)
    · intro ht
      obtain ⟨h1, h2⟩ := List.mem_filter.1 ht
      obtain ⟨f, hf, rfl⟩ := List.mem_map.1 h1
      rw [htimes]
      exact List.mem_map_of_mem (h f hf (of_decide_eq_true h2))
  · intro h f hf hon
    have : f.timestep ∈ r.1.map (fun p => p.2.timestep) := by
      rw [h]
      exact List.mem_filter.2 ⟨List.mem_map_of_mem hf, decide_eq_true hon⟩
    rw [htimes] at this
    obtain ⟨g, hg, e⟩ := List.mem_map.1 this
    have hgf := hsub.subset hg
    have inj : ∀ x ∈ readable raws, ∀ y ∈ readable raws, x.timestep = y.timestep → x = y :=
      fun x hx y hy => List.inj_on_of_nodup_map (hft.imp (fun h => by omega)) hx hy
    rwa [← inj g hgf f hf e]

/-- A file with frames off the series and missing steps that loses nothing: 7 is off and 10 is missing, but
another frame off the series, 15, is used up with the step 10. -/
example : let raws := sample [0, 1, 2, 3, 4, 7, 15, 20, 30]
    stepsToRead raws none = .ok 30 ∧ OnlyCorrupt raws ∧ Increasing (readable raws) ∧
    (seriesList 30 4 100 2).map Prod.fst = [0, 1, 2, 3, 4, 10, 20, 30] ∧
    (readGsd raws none (some 4) 100 2).1.map (fun p => p.2.timestep) = [0, 1, 2, 3, 4, 20, 30] :=
  ⟨by decide, onlyCorrupt_sample _, by unfold Increasing; decide, by decide, by decide⟩

example : NoneHeld .level [(4, .both), (7, .frame), (10, .step), (15, .frame), (20, .both), (30, .both)] := by
  simp [NoneHeld, Place.next, Place.holds]

example : ¬ NoneHeld .level [(4, .both), (7, .frame), (10, .step), (20, .both)] := by
  simp [NoneHeld, Place.next, Place.holds]

/-- **C163, exactly.**  A frame that raises `e` is met by the exponential reader iff, at the end of the time
line of the frames before it, no frame is waiting for a step; otherwise the reader ends as if the file had. -/
theorem C163_exactly (pre rest : List (Raw α)) (e : PyErr) (stepsMax : Option Int)
    (interval kmax linear m : Int) (he : e ≠ .runtimeError) (hc : OnlyCorrupt pre)
    (hinc : Increasing (readable pre)) (hm0 : 0 ≤ m) (hi : 1 ≤ interval) (hl : 1 ≤ linear)
    (hm : stepsToRead (pre ++ .error e :: rest) stepsMax = .ok m) :
    (readGsd (pre ++ .error e :: rest) stepsMax (some linear) interval kmax).2 =
      if (finish .level (timeline ((readable pre).map GFrame.timestep)
        ((seriesList m linear interval kmax).map Prod.fst))).framesDone then some e else none := by
  obtain ⟨starts', hT, _⟩ := series_trace m linear interval kmax hl (by omega) hm0
  have hle : ∀ s ∈ seriesList m linear interval kmax, s.1 ≤ m := fun s hs =>
    (hT.range s.1 (List.mem_map.2 ⟨s, hs, rfl⟩)).2.2
  simp only [readGsd, gsdExponential, hm, iterTrajectory_error pre rest e hc he]
  exact (reader_ends m (some e) _ (readable pre) (seriesList m linear interval kmax) le_rfl
    (by rw [List.pairwise_map]; exact hinc) hT.sorted hle).1

/-- The hypotheses and the result for the frames 0, 1, 3 and 7 of a series 0, 1, 2, 10: the exception is not
met. -/
example : let pre := sample [0, 1, 3, 7]
    let raws := pre ++ [.error .valueError]
    stepsToRead raws (some 10) = .ok 10 ∧ OnlyCorrupt pre ∧ Increasing (readable pre) ∧
    (seriesList 10 2 100 1).map Prod.fst = [0, 1, 2, 10] ∧
    (readGsd raws (some 10) (some 2) 100 1).2 = none :=
  ⟨by decide, onlyCorrupt_sample _, by unfold Increasing; decide, by decide, by decide⟩

/-- On the time line: the frame 3 is held until the step 10, and the frame 7 then waits for a further step. -/
example : finish .level [(0, .both), (1, .both), (2, .step), (3, .frame), (7, .frame), (10, .step)] =
      .framesPassed ∧
    finish .level [(0, .both), (1, .both), (2, .step), (3, .frame), (10, .step)] = .level :=
  ⟨rfl, rfl⟩

end Verif.Gsd
