import Verif.Gsd.LocalLemmas
import Verif.Gsd.Props
/-!
# C169: frames are lost only just after a frame off the series and a missing step
-/

namespace Verif.Gsd

open Verif.StepSize

variable {α : Type}

/-- **C169, by frames.**  A frame on the series is yielded if the two frames before it in the file (as far
as there are any) are on the series too: whatever else is wrong in the file, and wherever. -/
theorem C169_frames (raws : List (Raw α)) (stepsMax : Option Int) (interval kmax linear m : Int)
    (hm : stepsToRead raws stepsMax = .ok m) (hc : OnlyCorrupt raws)
    (hinc : Increasing (readable raws)) (hm0 : 0 ≤ m) (hi : 1 ≤ interval) (hl : 1 ≤ linear)
    (i : Nat) (f : GFrame α) (hf : (readable raws)[i]? = some f)
    (hon : f.timestep ∈ (seriesList m linear interval kmax).map Prod.fst)
    (hbefore : ∀ j g, j < i → i ≤ j + 2 → (readable raws)[j]? = some g →
      g.timestep ∈ (seriesList m linear interval kmax).map Prod.fst) :
    f ∈ (readGsd raws stepsMax (some linear) interval kmax).1.map Prod.snd := by
  obtain ⟨starts', hT, _⟩ := series_trace m linear interval kmax hl (by omega) hm0
  have hsort : Sorted (seriesList m linear interval kmax) := List.pairwise_map.1 hT.sorted
  have hle : ∀ s ∈ seriesList m linear interval kmax, s.1 ≤ m := fun s hs =>
    (hT.range s.1 (List.mem_map.2 ⟨s, hs, rfl⟩)).2.2
  simp only [readGsd, gsdExponential, hm, iterTrajectory_eq raws hc]
  generalize seriesList m linear interval kmax = ss at *
  generalize readable raws = fs at *
  match i with
  | 0 =>
    cases fs with
    | nil => simp at hf
    | cons x fs =>
      obtain rfl : x = f := by simpa using hf
      exact first_on m none x fs ss hsort hle hon
  | 1 =>
    cases fs with
    | nil => simp at hf
    | cons y fs =>
      cases fs with
      | nil => simp at hf
      | cons x fs =>
        obtain rfl : x = f := by simpa using hf
        exact second_on m none y x fs ss hsort hle ((List.pairwise_cons.1 hinc).1 x (by simp))
          (hbefore 0 y (by omega) (by omega) rfl) hon
  | i + 2 =>
    obtain ⟨pre, h, g, post, h1, h2, h3, -⟩ := split3 fs i f hf
    exact (third_on m none _ fs le_rfl hinc).1 ss pre post h g f hsort hle h1
      (hbefore i h (by omega) (by omega) h2) (hbefore (i + 1) g (by omega) (by omega) h3) hon

/-- The hypotheses, for frame 100 of a file where 7 is off the series, the steps 10 and 30 are missing and the
frame 20 is lost. -/
example : let raws := sample [0, 1, 2, 3, 4, 7, 20, 40, 100, 101]
    stepsToRead raws none = .ok 101 ∧ OnlyCorrupt raws ∧ Increasing (readable raws) ∧
    ((readable raws)[8]?).map GFrame.timestep = some 100 ∧
    (∀ j g, j < 8 → 8 ≤ j + 2 → (readable raws)[j]? = some g →
      g.timestep ∈ (seriesList 101 4 100 2).map Prod.fst) ∧
    (readGsd raws none (some 4) 100 2).1.map (fun p => p.2.timestep) = [0, 1, 2, 3, 4, 40, 100, 101] := by
  refine ⟨by decide, onlyCorrupt_sample _, by unfold Increasing; decide, by decide, ?_, by decide⟩
  intro j g h1 h2 h3
  obtain rfl | rfl : j = 6 ∨ j = 7 := by omega
  all_goals
    obtain rfl := Option.some.inj h3
    decide

/-- **C169, by steps.**  A step whose frame is in the file is yielded, with its own list of start indices, if
the frames of the two steps before it (as far as there are any) are in the file too. -/
theorem C169_steps (raws : List (Raw α)) (stepsMax : Option Int) (interval kmax linear m : Int)
    (hm : stepsToRead raws stepsMax = .ok m) (hc : OnlyCorrupt raws)
    (hinc : Increasing (readable raws)) (hm0 : 0 ≤ m) (hi : 1 ≤ interval) (hl : 1 ≤ linear)
    (i : Nat) (p : Int × List Nat) (hp : (seriesList m linear interval kmax)[i]? = some p)
    (f : GFrame α) (hf : f ∈ readable raws) (hfp : f.timestep = p.1)
    (hbefore : ∀ j q, j < i → i ≤ j + 2 → (seriesList m linear interval kmax)[j]? = some q →
      ∃ g ∈ readable raws, g.timestep = q.1) :
    (p.2, f) ∈ (readGsd raws stepsMax (some linear) interval kmax).1 := by
  obtain ⟨starts', hT, _⟩ := series_trace m linear interval kmax hl (by omega) hm0
  have hsort : Sorted (seriesList m linear interval kmax) := List.pairwise_map.1 hT.sorted
  have hle : ∀ s ∈ seriesList m linear interval kmax, s.1 ≤ m := fun s hs =>
    (hT.range s.1 (List.mem_map.2 ⟨s, hs, rfl⟩)).2.2
  simp only [readGsd, gsdExponential, hm, iterTrajectory_eq raws hc]
  generalize seriesList m linear interval kmax = ss at *
  generalize readable raws = fs at *
  match i with
  | 0 =>
    cases ss with
    | nil => simp at hp
    | cons x ss =>
      obtain rfl : x = p := by simpa using hp
      obtain ⟨a, b, -, h⟩ := next_step m none x ss (hle x (by simp)) fs f hinc hf hfp
      rw [h]
      simp
  | 1 =>
    cases ss with
    | nil => simp at hp
    | cons y ss =>
      cases ss with
      | nil => simp at hp
      | cons x ss =>
        obtain rfl : x = p := by simpa using hp
        obtain ⟨g, hg, hgy⟩ := hbefore 0 y (by omega) (by omega) rfl
        exact second_step m none y x ss (hle y (by simp)) (hle x (by simp))
          ((List.pairwise_cons.1 hsort).1 x (by simp)) fs g f hinc hg hf hgy hfp
  | i + 2 =>
    obtain ⟨pre, a, b, post, h1, h2, h3, -⟩ := split3 ss i p hp
    obtain ⟨f2, hf2, e2⟩ := hbefore i a (by omega) (by omega) h2
    obtain ⟨f1, hf1, e1⟩ := hbefore (i + 1) b (by omega) (by omega) h3
    subst h1
    exact (third_step m none a b p post f2 f1 f e2 e1 hfp fs hinc hf2 hf1 hf).1 pre hsort hle

/-- The hypotheses, for step 30 of a file where the step 2 is missing and 7, 15 and 25 are off the series. -/
example : let raws := sample [0, 1, 7, 10, 15, 20, 25, 30]
    stepsToRead raws none = .ok 30 ∧ OnlyCorrupt raws ∧ Increasing (readable raws) ∧
    ((seriesList 30 2 100 1)[5]?).map Prod.fst = some 30 ∧
    (∀ j q, j < 5 → 5 ≤ j + 2 → (seriesList 30 2 100 1)[j]? = some q →
      ∃ g ∈ readable raws, g.timestep = q.1) ∧
    (readGsd raws none (some 2) 100 1).1.map (fun p => p.2.timestep) = [0, 1, 20, 30] := by
  refine ⟨by decide, onlyCorrupt_sample _, by unfold Increasing; decide, by decide, ?_, by decide⟩
  intro j g h1 h2 h3
  obtain rfl | rfl : j = 3 ∨ j = 4 := by omega
  all_goals
    obtain rfl := Option.some.inj h3
    decide

/-- One frame, or one step, is not enough: in the first file frame 40 comes after frame 20, on the series, and
is lost; in the second step 30 comes after step 20, which has its frame, and is lost. -/
theorem C169_two_needed :
    (readGsd (sample [0, 1, 2, 3, 4, 17, 20, 40, 50]) (some 50) (some 4) 100 1).1.map
      (fun p => p.2.timestep) = [0, 1, 2, 3, 4, 50] ∧
    (readGsd (sample [0, 1, 2, 3, 4, 7, 20, 25, 30, 40]) (some 40) (some 4) 100 1).1.map
      (fun p => p.2.timestep) = [0, 1, 2, 3, 4, 40] ∧
    (seriesList 50 4 100 1).map Prod.fst = [0, 1, 2, 3, 4, 10, 20, 30, 40, 50] := by
  decide

end Verif.Gsd
