import Verif.Gsd.ErrorSpec
import Verif.Gsd.ErrorLemmas
import Verif.Gsd.Props
/-!
# C163: an exception of the file other than that of a corrupt frame reaches the caller
-/

namespace Verif.Gsd

open Verif.StepSize

variable {α : Type}

/-- **C163, linear.**  With a frame that raises `e`, the linear reader yields what it yields for the part of
the file before that frame; it then raises `e`, unless one of those frames is beyond the limit. -/
theorem C163_linear (pre rest : List (Raw α)) (e : PyErr) (stepsMax : Option Int) (interval kmax : Int)
    (he : e ≠ .runtimeError) (hc : OnlyCorrupt pre) (hi : interval ≠ 0) :
    (readGsd (pre ++ .error e :: rest) stepsMax none interval kmax).1 =
      (readGsd pre stepsMax none interval kmax).1 ∧
    ((∀ m, stepsMax = some m → ∀ f ∈ readable pre, f.timestep ≤ m) →
      (readGsd (pre ++ .error e :: rest) stepsMax none interval kmax).2 = some e) ∧
    ((∃ m, stepsMax = some m ∧ ∃ f ∈ readable pre, m < f.timestep) →
      (readGsd (pre ++ .error e :: rest) stepsMax none interval kmax).2 = none) := by
  simp only [readGsd, gsdLinear, iterTrajectory_error pre rest e hc he, iterTrajectory_eq pre hc]
  obtain ⟨h1, h2⟩ := linear_end stepsMax interval kmax hi (some e) (readable pre) []
  refine ⟨h1, ?_, ?_⟩
  · intro h
    rw [h2, if_neg]
    rw [List.any_eq_true]
    rintro ⟨f, hf, hb⟩
    cases stepsMax with
    | none => simp at hb
    | some m =>
      have := h m rfl f hf
      simp only [Option.any_some, decide_eq_true_eq] at hb
      omega
  · rintro ⟨m, rfl, f, hf, hlt⟩
    rw [h2, if_pos]
    rw [List.any_eq_true]
    exact ⟨f, hf, by simpa using hlt⟩

/-- The linear reader does what one expects. -/
theorem C163_linear_reaches : ErrorReaches α none := by
  intro pre rest e m interval kmax he hc _ hle _ hi
  obtain ⟨h1, h2, -⟩ := C163_linear pre rest e (some m) interval kmax he hc (by omega)
  refine Prod.ext h1 (h2 ?_)
  rintro m' h f hf
  obtain rfl := Option.some.inj h
  exact hle f hf

example : (readGsd (sample [0, 1, 3] ++ .error .valueError :: sample [7]) none none 10 5).1.map
      (fun p => p.2.timestep) = [0, 1, 3] ∧
    (readGsd (sample [0, 1, 3] ++ .error .valueError :: sample [7]) none none 10 5).2 = some .valueError :=
  ⟨rfl, rfl⟩

/-- **C163, exponential: what is yielded.**  With a frame that raises `e`, the exponential reader yields what
it yields for the part of the file before that frame. -/
theorem C163_exponential_frames (pre rest : List (Raw α)) (e : PyErr) (stepsMax : Option Int)
    (interval kmax linear m : Int) (he : e ≠ .runtimeError) (hc : OnlyCorrupt pre)
    (hm : stepsToRead (pre ++ .error e :: rest) stepsMax = .ok m) :
    (readGsd (pre ++ .error e :: rest) stepsMax (some linear) interval kmax).1 =
      (readGsd pre (some m) (some linear) interval kmax).1 := by
  have h1 : stepsToRead pre (some m) = .ok m := rfl
  simp only [readGsd, gsdExponential, hm, h1, iterTrajectory_error pre rest e hc he,
    iterTrajectory_eq pre hc]
  exact (exp_fst m (some e) _ (readable pre) le_rfl).1 _

example : stepsToRead (sample [0, 1, 3] ++ .error .valueError :: sample [7]) none = .ok 7 := rfl

/-- **C163, exponential: the exception.**  The exponential reader raises `e` when no frame before is beyond
the limit and either no frame off the series lies between the last two steps or no step is missing.

The full statement is `ErrorReaches α (some linear)` (see `C163_refuted`): without the last condition the
reader can run out of steps before it comes to the frame that raises `e`. -/
theorem C163_exponential_partial (pre rest : List (Raw α)) (e : PyErr) (stepsMax : Option Int)
    (interval kmax linear m : Int) (he : e ≠ .runtimeError) (hc : OnlyCorrupt pre)
    (hinc : Increasing (readable pre)) (hm0 : 0 ≤ m) (hi : 1 ≤ interval) (hl : 1 ≤ linear)
    (hm : stepsToRead (pre ++ .error e :: rest) stepsMax = .ok m)
    (hle : ∀ f ∈ readable pre, f.timestep ≤ m)
    (hK : NoneBeforeLast (readable pre) ((seriesList m linear interval kmax).map Prod.fst) m ∨
      NoStepMissing (readable pre) ((seriesList m linear interval kmax).map Prod.fst)) :
    (readGsd (pre ++ .error e :: rest) stepsMax (some linear) interval kmax).2 = some e := by
  obtain ⟨starts', hT, _⟩ := series_trace m linear interval kmax hl (by omega) hm0
  have hsort : (seriesList m linear interval kmax).Pairwise (fun a b => a.1 < b.1) :=
    List.pairwise_map.1 hT.sorted
  have hrange : ∀ s ∈ seriesList m linear interval kmax, s.1 ≤ m := fun s hs =>
    (hT.range s.1 (List.mem_map.2 ⟨s, hs, rfl⟩)).2.2
  have hlast : m ∈ (seriesList m linear interval kmax).map Prod.fst := by
    have := (C05_series_runs_from_zero_to_total m linear interval kmax hm0 hl hi).2.2.2.2
    exact List.mem_of_getLast? this
  simp only [readGsd, gsdExponential, hm, iterTrajectory_error pre rest e hc he]
  rcases hK with hK | hK
  · refine (exp_snd_frames m (some e) _ hsort hrange _ (readable pre) le_rfl hle hinc ?_).1 _
      (List.suffix_refl _) (Or.inr hlast)
    intro f hf
    rcases hK f hf with h | ⟨s, h1, h2, h3⟩
    · exact Or.inl h
    · obtain ⟨x, hx, rfl⟩ := List.mem_map.1 h1
      exact Or.inr ⟨x, hx, h2, h3⟩
  · refine (exp_snd_steps m (some e) _ (readable pre) le_rfl hle hinc).1 _ hsort hrange ?_ (Or.inr hlast)
    intro s hs
    exact hK s.1 (List.mem_map.2 ⟨s, hs, rfl⟩)

/-- The hypotheses for a file with a frame off the series (3) and a missing step (2): the exception comes
after the frames at 0 and 1 (C162). -/
example : let pre := sample [0, 1, 3, 10]
    let raws := pre ++ .error .valueError :: sample [30]
    stepsToRead raws none = .ok 30 ∧ OnlyCorrupt pre ∧ Increasing (readable pre) ∧
    NoneBeforeLast (readable pre) ((seriesList 30 2 100 1).map Prod.fst) 30 ∧
    (readGsd raws none (some 2) 100 1).1.map (fun p => p.2.timestep) = [0, 1] ∧
    (readGsd raws none (some 2) 100 1).2 = some .valueError := by
  refine ⟨by decide, onlyCorrupt_sample _, by unfold Increasing; decide, ?_, by decide, by decide⟩
  unfold NoneBeforeLast
  decide

/-- The same for a file with a frame before the last step (7), where no step is missing. -/
example : NoStepMissing (readable (sample [0, 1, 2, 7])) ((seriesList 10 2 100 1).map Prod.fst) ∧
    (readGsd (sample [0, 1, 2, 7] ++ [.error .valueError]) (some 10) (some 2) 100 1).2 =
      some .valueError := by
  refine ⟨?_, by decide⟩
  unfold NoStepMissing
  decide

/-- **C163, the limit.**  With two frames beyond the limit before it, the frame that raises `e` is not
read. -/
theorem C163_limit (pre rest : List (Raw α)) (e : PyErr) (stepsMax : Option Int)
    (interval kmax linear m : Int) (he : e ≠ .runtimeError) (hc : OnlyCorrupt pre)
    (hinc : Increasing (readable pre)) (hm0 : 0 ≤ m) (hi : 1 ≤ interval) (hl : 1 ≤ linear)
    (hm : stepsToRead (pre ++ .error e :: rest) stepsMax = .ok m)
    (h2 : 2 ≤ ((readable pre).filter (fun f => decide (m < f.timestep))).length) :
    (readGsd (pre ++ .error e :: rest) stepsMax (some linear) interval kmax).2 = none := by
  obtain ⟨starts', hT, _⟩ := series_trace m linear interval kmax hl (by omega) hm0
  have hrange : ∀ s ∈ seriesList m linear interval kmax, s.1 ≤ m := fun s hs =>
    (hT.range s.1 (List.mem_map.2 ⟨s, hs, rfl⟩)).2.2
  simp only [readGsd, gsdExponential, hm, iterTrajectory_error pre rest e hc he]
  exact (exp_two_beyond m (some e) _ (readable pre) le_rfl hinc h2).1 _ hrange

/-- The hypotheses, for a limit of 2; one frame beyond the limit is not enough when a step is missing. -/
example : 2 ≤ ((readable (sample [0, 1, 2, 3, 4])).filter (fun f => decide (2 < f.timestep))).length ∧
    (readGsd (sample [0, 1, 2, 3, 4] ++ [.error .valueError]) (some 2) (some 2) 100 1).2 = none ∧
    (readGsd (sample [0, 1, 3] ++ [.error .valueError]) (some 2) (some 2) 100 1).2 = none ∧
    (readGsd (sample [1, 3] ++ [.error .valueError]) (some 2) (some 2) 100 1).2 = none := by
  refine ⟨by decide, by decide, by decide, by decide⟩

/-- **C163, no limit.**  With exponential steps and no limit, a frame that raises `e` at the end of the file
(before up to nine corrupt frames) is met when the number of steps is looked up: no frame is yielded. -/
theorem C163_last (pre bad : List (Raw α)) (e : PyErr) (interval kmax linear : Int)
    (he : e ≠ .runtimeError) (hbad : ∀ r ∈ bad, r = .error .runtimeError) (hn : bad.length ≤ 9) :
    readGsd (pre ++ .error e :: bad) none (some linear) interval kmax = ([], some e) := by
  have h1 : getNumSteps (pre ++ .error e :: bad) = .error e := by
    unfold getNumSteps
    have e1 : pre ++ .error e :: bad = (pre ++ [.error e]) ++ bad := by simp
    rw [show 10 = bad.length + (10 - bad.length) by omega, e1]
    rw [numStepsLoop_skip _ bad.length _ 1
      (fun j hj => fromEnd_corrupt _ bad hbad (1 + j) (by omega) (by omega))]
    rw [show 10 - bad.length = (9 - bad.length) + 1 by omega, numStepsLoop]
    have : fromEnd ((pre ++ [.error e]) ++ bad) (1 + bad.length) = some (.error e) := by
      rw [List.append_assoc, fromEnd_append pre _ _ (by simp; omega)]
      simp [show bad.length + 1 - (1 + bad.length) = 0 by omega]
    rw [this]
    cases e <;> first | rfl | exact absurd rfl he
  simp only [readGsd, gsdExponential, stepsToRead, h1]

example : readGsd (sample [0, 1, 2] ++ .error .valueError :: [.error .runtimeError]) none (some 2) 100 1 =
    ([], some .valueError) := rfl

/-- **C163, open_trajectory.**  A frame that raises `e` at one of the positions visited ends the trajectory
with `e` after the frames before; at another position it makes no difference. -/
theorem C163_open (pre rest : List (Raw α)) (e : PyErr) (bar : Progress) (n : Nat)
    (he : e ≠ .runtimeError) (hc : OnlyCorrupt pre) (hn : 1 ≤ n) (hb : bar ≠ .other) :
    (n ∣ pre.length → openGsd (pre ++ .error e :: rest) bar n = ((openGsd pre bar n).1, some e)) ∧
    (¬ n ∣ pre.length → ∀ r, openGsd (pre ++ .error e :: rest) bar n = openGsd (pre ++ r :: rest) bar n) := by
  unfold openGsd
  simp only [if_neg hb, show ¬ (n : Int) = 0 by omega, show ¬ (n : Int) < 0 by omega, if_false,
    Int.toNat_natCast]
  constructor
  · intro hd
    obtain ⟨tl, htl⟩ := rangeStep_append pre.length rest.length n (Nat.mod_eq_zero_of_dvd hd)
    rw [List.length_append, List.length_cons, htl,
      openLoop_append pre (.error e :: rest) hc _ _ (fun i hi => (mem_rangeStep.1 hi).1)]
    have : openLoop (pre ++ .error e :: rest) (pre.length :: tl) = ([], some e) := by
      rw [openLoop, List.getElem?_append_right le_rfl]
      simp only [Nat.sub_self, List.getElem?_cons_zero]
    rw [this, List.append_nil]
  · intro hd r
    rw [show (pre ++ .error e :: rest).length = (pre ++ r :: rest).length by simp]
    apply openLoop_congr
    intro i hi
    have h1 := (mem_rangeStep.1 hi).2
    have h2 : i ≠ pre.length := fun h => hd (h ▸ Nat.dvd_of_mod_eq_zero h1)
    by_cases h3 : i < pre.length
    · rw [List.getElem?_append_left h3, List.getElem?_append_left h3]
    · rw [List.getElem?_append_right (by omega), List.getElem?_append_right (by omega)]
      obtain ⟨j, hj⟩ : ∃ j, i - pre.length = j + 1 := ⟨i - pre.length - 1, by omega⟩
      rw [hj, List.getElem?_cons_succ, List.getElem?_cons_succ]

/-- Every second frame: an exception at position 2 ends the trajectory, one at position 3 does not. -/
example : openGsd (sample [0, 1] ++ .error .valueError :: sample [3, 4]) .none 2 =
      ((openGsd (sample [0, 1]) .none 2).1, some .valueError) ∧
    (openGsd (sample [0, 1, 2] ++ .error .valueError :: sample [4]) .none 2).1.map GFrame.timestep =
      [0, 2, 4] := by
  constructor <;> decide

/-- **C163 refuted.**  With exponential steps the exception can go unnoticed: the frames 0, 1, 3 and 7 of a
series 0, 1, 2, 10 use up the steps, and the reader ends as if the file had. -/
theorem C163_refuted : ¬ ErrorReaches Unit (some 2) := by
  intro h
  have := congrArg Prod.snd (h (sample [0, 1, 3, 7]) [] .valueError 10 100 1 (by decide)
    (onlyCorrupt_sample _) (by unfold Increasing; decide) (by decide) (by decide) (by decide))
  revert this
  decide

end Verif.Gsd
