import Verif.Gsd.LazyLemmas
/-!
# C159: whether reading with exponential steps comes to an end
-/

namespace Verif.Gsd

open Verif.StepSize

variable {α : Type}

/-- **C159 (at least one linear step).** The full property says that reading ends whatever the
integers; for `linear_steps ≥ 1`, a number of steps that is not negative and an interval other
than 0 it does, with exactly the frames and the end of the reader on lists on which all the other
claims about the reader rest.  Missing: `linear_steps ≤ 0`, see `C159_hangs`. -/
theorem C159_ends_partial (raws : List (Raw α)) (stepsMax : Option Int)
    (interval kmax linear m : Int) (hm : stepsToRead raws stepsMax = .ok m) (h0 : 0 ≤ m)
    (hl : 1 ≤ linear) (hi : interval ≠ 0) :
    ComesToEnd (fun n => lazyExponential n raws stepsMax interval kmax linear) ∧
    ∃ N, ∀ n ≥ N, lazyExponential n raws stepsMax interval kmax linear =
      ((gsdExponential raws stepsMax interval kmax linear).1,
        Ending.of (gsdExponential raws stepsMax interval kmax linear).2) := by
  have key : ∃ N, ∀ n ≥ N, lazyExponential n raws stepsMax interval kmax linear =
      ((gsdExponential raws stepsMax interval kmax linear).1,
        Ending.of (gsdExponential raws stepsMax interval kmax linear).2) := by
    obtain ⟨N1, s, hN1, hp⟩ := series_produces m linear interval kmax h0 hl hi
    obtain ⟨N2, hN2⟩ := (lazyReader_eq m (iterTrajectory raws).2 (iterTrajectory raws).1).1 s _ hp
    refine ⟨max N1 N2, fun n hn => ?_⟩
    simp only [lazyExponential, gsdExponential, hm, hN1 n (by omega), hN2 n (by omega), asEnding]
  obtain ⟨N, hN⟩ := key
  exact ⟨⟨N, _, _, Ending.of_ne_running _, hN⟩, N, hN⟩

example (raws : List (Raw α)) : ComesToEnd (fun n => lazyExponential n raws (some 1000) 200 5 10) :=
  (C159_ends_partial raws (some 1000) 200 5 10 1000 rfl (by decide) (by decide) (by decide)).1

/-- **C159 (how it ends).** Where reading comes to an end as above, an exception of the reader on lists is
raised, and otherwise the generator returns. -/
theorem C159_ending (raws : List (Raw α)) (stepsMax : Option Int) (interval kmax linear m : Int)
    (hm : stepsToRead raws stepsMax = .ok m) (h0 : 0 ≤ m) (hl : 1 ≤ linear) (hi : interval ≠ 0) :
    ∃ N, ∀ n ≥ N, (∀ e, (gsdExponential raws stepsMax interval kmax linear).2 = some e →
        (lazyExponential n raws stepsMax interval kmax linear).2 = .raised e) ∧
      ((gsdExponential raws stepsMax interval kmax linear).2 = none →
        (lazyExponential n raws stepsMax interval kmax linear).2 = .returned) := by
  obtain ⟨-, N, hN⟩ := C159_ends_partial raws stepsMax interval kmax linear m hm h0 hl hi
  refine ⟨N, fun n hn => ?_⟩
  rw [hN n hn]
  exact ⟨fun e he => by rw [he]; rfl, fun he => by rw [he]; rfl⟩

/-- Both ends, for the two frames below and for a file with a frame that cannot be read. -/
example : (gsdExponential ([.ok ⟨0, ()⟩, .ok ⟨1, ()⟩] : List (Raw Unit)) none 20000 500 100).2 = none ∧
    (gsdExponential ([.ok ⟨0, ()⟩, .error .valueError, .ok ⟨1, ()⟩] : List (Raw Unit)) none
      20000 500 100).2 = some .valueError := by decide

/-- **C159 (no linear steps).** With `linear_steps ≤ 0` the reader of a file with a readable frame
never yields a frame, never returns and never raises: it is still looking for the second step of
the first keyframe. -/
theorem C159_hangs (raws : List (Raw α)) (stepsMax : Option Int) (interval kmax linear m : Int)
    (hm : stepsToRead raws stepsMax = .ok m) (h0 : 0 < m) (hl : linear ≤ 0) (hi : interval ≠ 0)
    (hr : Readable raws) :
    NeverEnds (fun n => lazyExponential n raws stepsMax interval kmax linear) := by
  intro n
  simp only [lazyExponential, hm]
  cases n with
  | zero =>
    simp [LazySeries.init, LazySeries.addGenerator, LazySeries.enqueue, Gen.next]
  | succ n =>
    rw [init_first m linear interval kmax h0 n]
    refine lazyReader_stuck _ _ _ _ _ _ ((iterTrajectory_readable raws).2 hr) ?_
    simp only [lazyStep, next_hangs m linear interval kmax hl hi]

/-- A file with two frames. -/
def twoFrames : List (Raw Unit) := [.ok ⟨0, ()⟩, .ok ⟨1, ()⟩]

/-- **C159 is refuted.** Two frames and `linear_steps = 0` are enough: nothing ever happens. -/
theorem C159_ends_refuted :
    ¬ ComesToEnd (fun n => lazyExponential n twoFrames none 20000 500 0) := by
  rintro ⟨N, out, e, he, h⟩
  have h1 := h N (le_refl _)
  have h2 := C159_hangs twoFrames none 20000 500 0 1 rfl (by decide) (by decide) (by decide)
    ⟨[], _, _, rfl, by simp⟩ N
  rw [h2] at h1
  simp only [Prod.mk.injEq] at h1
  exact he h1.2.symm

/-- **C159 (every other case).** A negative number of steps makes the first turn raise KeyError,
an interval of 0 makes it raise ZeroDivisionError, whatever the other integers; without a readable
frame the reader ends as `iter_trajectory` does. -/
theorem C159_errors (raws : List (Raw α)) (stepsMax : Option Int) (interval kmax linear m : Int)
    (hm : stepsToRead raws stepsMax = .ok m) (n : Nat) :
    (Readable raws → m < 0 →
      lazyExponential (n + 1) raws stepsMax interval kmax linear = ([], .raised .keyError)) ∧
    (Readable raws → 0 ≤ m → interval = 0 →
      lazyExponential (n + 1) raws stepsMax interval kmax linear =
        ([], .raised .zeroDivisionError)) ∧
    (¬ Readable raws → lazyExponential (n + 1) raws stepsMax interval kmax linear =
      ([], Ending.of (iterTrajectory raws).2)) := by
  refine ⟨fun hr h0 => ?_, fun hr h0 hi => ?_, fun hr => ?_⟩
  · simp only [lazyExponential, hm]
    rw [init_only m linear interval kmax (by omega) n]
    refine lazyReader_stuck _ _ _ _ _ _ ((iterTrajectory_readable raws).2 hr) ?_
    simp only [lazyStep, next_negative m linear interval kmax h0]
  · subst hi
    simp only [lazyExponential, hm]
    by_cases h1 : 0 < m
    · rw [init_first m linear 0 kmax h1 n]
      refine lazyReader_stuck _ _ _ _ _ _ ((iterTrajectory_readable raws).2 hr) ?_
      simp only [lazyStep, next_zero_interval]
    · have : m = 0 := by omega
      subst this
      rw [init_only 0 linear 0 kmax (le_refl _) n]
      refine lazyReader_stuck _ _ _ _ _ _ ((iterTrajectory_readable raws).2 hr) ?_
      simp only [lazyStep, next_zero_interval']
  · rw [← iterTrajectory_readable, not_not] at hr
    simp only [lazyExponential, hm]
    obtain ⟨s, hs⟩ := init_some m linear interval kmax n
    rw [hs, hr]
    simp only [lazyReader]

example : lazyExponential 1 twoFrames (some (-1)) 20000 500 100 = ([], .raised .keyError) :=
  (C159_errors twoFrames (some (-1)) 20000 500 100 (-1) rfl 0).1 ⟨[], _, _, rfl, by simp⟩ (by decide)

/-- **C159 (exactly when).** Reading ends except when a frame can be read, the number of steps is
positive, the interval is not 0 and there is no linear step. -/
theorem C159_exactly (raws : List (Raw α)) (stepsMax : Option Int) (interval kmax linear : Int) :
    ComesToEnd (fun n => lazyExponential n raws stepsMax interval kmax linear) ↔
      ¬ ∃ m, stepsToRead raws stepsMax = .ok m ∧ 0 < m ∧ Readable raws ∧ interval ≠ 0 ∧
        linear ≤ 0 := by
  constructor
  · rintro ⟨N, out, e, he, h⟩ ⟨m, hm, h0, hr, hi, hl⟩
    have h1 := h N (le_refl _)
    rw [C159_hangs raws stepsMax interval kmax linear m hm h0 hl hi hr N] at h1
    simp only [Prod.mk.injEq] at h1
    exact he h1.2.symm
  · intro h
    cases hm : stepsToRead raws stepsMax with
    | error e =>
      exact ⟨0, [], .raised e, by simp, fun n _ => by simp only [lazyExponential, hm]⟩
    | ok m =>
      have hE := C159_errors raws stepsMax interval kmax linear m hm
      have hsucc : ∀ n ≥ 1, ∃ k, n = k + 1 := fun n hn => ⟨n - 1, by omega⟩
      by_cases hr : Readable raws
      · by_cases h0 : m < 0
        · refine ⟨1, [], .raised .keyError, by simp, fun n hn => ?_⟩
          obtain ⟨k, rfl⟩ := hsucc n hn
          exact (hE k).1 hr h0
        · by_cases hi : interval = 0
          · refine ⟨1, [], .raised .zeroDivisionError, by simp, fun n hn => ?_⟩
            obtain ⟨k, rfl⟩ := hsucc n hn
            exact (hE k).2.1 hr (by omega) hi
          · by_cases hl : 1 ≤ linear
            · exact (C159_ends_partial raws stepsMax interval kmax linear m hm (by omega) hl hi).1
            · have h1 : ¬ 0 < m := fun h1 => h ⟨m, hm, h1, hr, hi, by omega⟩
              have h2 : m = 0 := by omega
              subst h2
              obtain ⟨N, hN⟩ := (lazyReader_eq 0 (iterTrajectory raws).2
                (iterTrajectory raws).1).1 _ _ (only_produces linear interval kmax hi)
              refine ⟨N + 1, (expReader 0 (iterTrajectory raws).2 (iterTrajectory raws).1
                [(0, [0])]).1, Ending.of (expReader 0 (iterTrajectory raws).2
                  (iterTrajectory raws).1 [(0, [0])]).2, Ending.of_ne_running _, fun n hn => ?_⟩
              have hn' := hN n (by omega)
              obtain ⟨k, rfl⟩ := hsucc n (by omega)
              simp only [lazyExponential, hm]
              rw [init_only 0 linear interval kmax (le_refl _) k]
              exact hn'
      · refine ⟨1, [], Ending.of (iterTrajectory raws).2, Ending.of_ne_running _, fun n hn => ?_⟩
        obtain ⟨k, rfl⟩ := hsucc n hn
        exact (hE k).2.2 hr

example : ComesToEnd (fun n => lazyExponential n twoFrames (some 0) 20000 500 0) :=
  (C159_exactly twoFrames (some 0) 20000 500 0).2 (by
    rintro ⟨m, hm, h0, _⟩
    simp only [stepsToRead, Except.ok.injEq] at hm
    omega)

/-- **C159 (the series).** For arguments in the stated range the series object, asked for one step
at a time, delivers exactly the steps and indexes of the list on which C05 and C06 are stated. -/
theorem C159_series (total nl gen maxGen : Int) (ht : 0 ≤ total) (hnl : 1 ≤ nl) (hgen : gen ≠ 0) :
    ∃ N s, (∀ n ≥ N, LazySeries.init total nl gen maxGen n = some s) ∧
      Produces s (seriesList total nl gen maxGen) :=
  series_produces total nl gen maxGen ht hnl hgen

example : ∃ N s, (∀ n ≥ N, LazySeries.init 25 10 20 2 n = some s) ∧
    Produces s (seriesList 25 10 20 2) :=
  C159_series 25 10 20 2 (by decide) (by decide) (by decide)

end Verif.Gsd
