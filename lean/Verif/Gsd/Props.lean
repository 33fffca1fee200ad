import Verif.Gsd.Lemmas
import Verif.StepSize.Props
/-!
# Properties C11 – C17, C73, C74: reading gsd trajectories
-/

namespace Verif.Gsd

open scoped List
open Verif.StepSize

variable {α : Type}

/-- Sample file used in the examples: frame `i` has timestep `i`-th of the list. -/
def sample (ts : List Int) : List (Raw Unit) := ts.map (fun t => .ok ⟨t, ()⟩)

theorem onlyCorrupt_sample (ts : List Int) : OnlyCorrupt (sample ts) := by
  intro r hr e he
  obtain ⟨t, _, rfl⟩ := List.mem_map.1 hr
  simp at he

/-! ## C11 -/

/-- **C11.** The yields of the exponential reader, given the number of steps `m` it uses: the
frames are a subsequence of the readable ones; the (timestep, indexes) pairs are a subsequence of
what the step series produces; in particular each yielded timestep is at most `m` and carries
exactly the keyframes that ask for it. -/
theorem C11_exponential_sound (raws : List (Raw α)) (stepsMax : Option Int)
    (interval kmax linear m : Int) (hm : stepsToRead raws stepsMax = .ok m) (hm0 : 0 ≤ m)
    (hi : 1 ≤ interval) (hl : 1 ≤ linear) :
    let out := (readGsd raws stepsMax (some linear) interval kmax).1
    out.map Prod.snd <+ readable raws ∧
    out.map (fun p => (p.2.timestep, p.1)) <+ seriesList m linear interval kmax ∧
    ∀ p ∈ out, 0 ≤ p.2.timestep ∧ p.2.timestep ≤ m ∧ p.1.Nodup ∧ ∀ i, i ∈ p.1 ↔
      ∃ st, firstStep (seriesList m linear interval kmax) i = some st ∧ st ≤ p.2.timestep ∧
        Wants m linear st p.2.timestep := by
  intro out
  have hout : out = (expReader m (iterTrajectory raws).2 (iterTrajectory raws).1
      (seriesList m linear interval kmax)).1 := by
    simp only [out, readGsd, gsdExponential, hm]
  obtain ⟨h1, h2⟩ := (exp_sublist m (iterTrajectory raws).2 (iterTrajectory raws).1).1
    (seriesList m linear interval kmax)
  rw [← hout] at h1 h2
  refine ⟨h1.trans (iterTrajectory_prefix raws).sublist, h2, ?_⟩
  intro p hp
  have hmem : (p.2.timestep, p.1) ∈ seriesList m linear interval kmax :=
    h2.subset (List.mem_map.2 ⟨p, hp, rfl⟩)
  obtain ⟨starts', hT, _⟩ := series_trace m linear interval kmax hl (by omega) hm0
  have hr := hT.range p.2.timestep (List.mem_map.2 ⟨_, hmem, rfl⟩)
  obtain ⟨h3, h4⟩ := C07_get_index_exact m linear interval kmax hm0 hl hi _ _ hmem
  exact ⟨by omega, by omega, h3, h4⟩

example : (readGsd (sample [0, 1, 2, 3, 5, 10]) none (some 5) 5 2).1.map
    (fun p => (p.2.timestep, p.1)) =
    [(0, [0]), (1, [0]), (2, [0]), (3, [0]), (5, [0, 1]), (10, [0, 1])] := by
  decide

/-! ## C12 -/

/-- The full property: every readable frame on the step series is yielded. -/
def ExponentialComplete (raws : List (Raw Unit)) (m interval kmax linear : Int) : Prop :=
  ∀ f ∈ readable raws, f.timestep ∈ (seriesList m linear interval kmax).map Prod.fst →
    f ∈ (readGsd raws (some m) (some linear) interval kmax).1.map Prod.snd

/-- **C12 is false of the code.** Steps 0, 1, 10, 20 are wanted; the file has 0, 1, 5, 20: when the
iterator (10) is ahead of the file (5) the reader skips to frame 20, finds it is not step 10, and
drops it although 20 is the next step. -/
theorem C12_exponential_complete_refuted :
    ¬ (∀ (raws : List (Raw Unit)) (m interval kmax linear : Int), OnlyCorrupt raws →
      Increasing (readable raws) → 0 ≤ m → 1 ≤ interval → 1 ≤ linear →
      ExponentialComplete raws m interval kmax linear) := by
  intro h
  have := h (sample [0, 1, 5, 20]) 20 100 1 1 (onlyCorrupt_sample _) (by unfold Increasing; decide)
    (by decide) (by decide) (by decide) ⟨20, ()⟩ (by decide) (by decide)
  revert this
  decide

/-- **C12 (partial).** The full statement is `ExponentialComplete`.  It holds – the yielded frames
are exactly the readable frames that are on the step series, in order – when one of the two sides
does not have to be skipped: (a) every readable frame within the run is on the series, or (b) no
step before the end of the file is missing from it.  Missing: files where both happen. -/
theorem C12_exponential_complete_partial (raws : List (Raw α)) (m interval kmax linear : Int)
    (hc : OnlyCorrupt raws) (hinc : Increasing (readable raws)) (hm0 : 0 ≤ m) (hi : 1 ≤ interval)
    (hl : 1 ≤ linear)
    (h : (∀ f ∈ readable raws, f.timestep ≤ m →
            f.timestep ∈ (seriesList m linear interval kmax).map Prod.fst) ∨
         (∀ s ∈ (seriesList m linear interval kmax).map Prod.fst,
            (∃ f ∈ readable raws, s ≤ f.timestep) → ∃ f ∈ readable raws, f.timestep = s)) :
    (readGsd raws (some m) (some linear) interval kmax).1.map Prod.snd =
      (readable raws).filter
        (fun f => decide (f.timestep ∈ (seriesList m linear interval kmax).map Prod.fst)) ∧
    (readGsd raws (some m) (some linear) interval kmax).2 = none := by
  obtain ⟨starts', hT, _⟩ := series_trace m linear interval kmax hl (by omega) hm0
  have hsort : (seriesList m linear interval kmax).Pairwise (fun a b => a.1 < b.1) := by
    have := hT.sorted
    rwa [List.pairwise_map] at this
  have hle : ∀ s ∈ seriesList m linear interval kmax, s.1 ≤ m := fun s hs =>
    (hT.range s.1 (List.mem_map.2 ⟨s, hs, rfl⟩)).2.2
  have hrd : readGsd raws (some m) (some linear) interval kmax =
      expReader m none (readable raws) (seriesList m linear interval kmax) := by
    simp only [readGsd, gsdExponential, stepsToRead, iterTrajectory_eq raws hc]
  rw [hrd]
  refine ⟨?_, (exp_end m (readable raws)).1 _⟩
  rcases h with h | h
  · rw [exp_complete_frames m none _ _ hinc hsort hle h]
    apply List.filter_congr
    intro f hf
    rw [decide_eq_decide]
    constructor
    · exact h f hf
    · intro hmem
      obtain ⟨s, hs, hse⟩ := List.mem_map.1 hmem
      have := hle s hs
      omega
  · apply (exp_complete_steps m none _).1 _ hinc hsort hle
    intro s hs
    exact h s.1 (List.mem_map.2 ⟨s, hs, rfl⟩)

/-- case (a): step 2 was lost with its frame -/
example : let raws := sample [0, 1] ++ [.error .runtimeError] ++ sample [10]
    (∀ f ∈ readable raws, f.timestep ≤ 10 → f.timestep ∈ (seriesList 10 2 5 1).map Prod.fst) ∧
    (readGsd raws (some 10) (some 2) 5 1).1.length = 3 := by decide
/-- case (b): more frames than steps -/
example : let raws := sample [0, 1, 2, 3, 4, 5, 10]
    (∀ s ∈ (seriesList 10 1 20 1).map Prod.fst, (∃ f ∈ readable raws, s ≤ f.timestep) →
      ∃ f ∈ readable raws, f.timestep = s) ∧
    (readGsd raws (some 10) (some 1) 20 1).1.length = 3 := by decide

/-! ## C13 -/

/-- **C13.** The linear reader yields the readable frames in file order up to (not including) the
first one beyond `steps_max`, and with the `j`-th of them the indexes `0, …, k-1` where `k` is the
number of frames so far whose timestep is a multiple of the interval, capped at `keyframe_max+1`. -/
theorem C13_linear_reader (raws : List (Raw α)) (stepsMax : Option Int) (interval kmax : Int)
    (hc : OnlyCorrupt raws) (hi : 1 ≤ interval) (hk : 0 ≤ kmax) :
    let out := (readGsd raws stepsMax none interval kmax).1
    out.map Prod.snd =
      (readable raws).takeWhile (fun f => !stepsMax.any (fun m => decide (m < f.timestep))) ∧
    ∀ (j : Nat) (il : List Nat) (f : GFrame α), out[j]? = some (il, f) → ∃ k : Nat,
      il = List.range k ∧
      (k : Int) = min ((((readable raws).take (j + 1)).filter
        (fun g => decide (interval ∣ g.timestep))).length : Int) (kmax + 1) := by
  intro out
  have hout : out = (linearReader stepsMax interval kmax none (readable raws) []).1 := by
    simp only [out, readGsd, gsdLinear, iterTrajectory_eq raws hc]
  rw [hout]
  refine ⟨linear_frames stepsMax interval kmax (by omega) none _ _, ?_⟩
  intro j il f h
  have := linear_index stepsMax interval kmax (by omega) none (readable raws) 0 j il f h
  refine ⟨_, this, ?_⟩
  rw [kfCount_eq _ _ _ 0 (by push_cast; omega)]
  rw [List.filter_map, List.length_map, max_eq_right (by omega)]
  congr 1
  push_cast
  rw [zero_add]
  congr 2
  apply List.filter_congr
  intro g _
  simp only [Function.comp, decide_eq_decide]
  exact (Int.dvd_iff_emod_eq_zero).symm

/-- The linear reader ends without an exception. -/
theorem C13_linear_ends (raws : List (Raw α)) (stepsMax : Option Int) (interval kmax : Int)
    (hc : OnlyCorrupt raws) (hi : 1 ≤ interval) :
    (readGsd raws stepsMax none interval kmax).2 = none := by
  have : ∀ (fs : List (GFrame α)) (il : List Nat),
      (linearReader stepsMax interval kmax none fs il).2 = none := by
    intro fs
    induction fs with
    | nil => intro il; rfl
    | cons f fs ih =>
      intro il
      rw [linearReader, if_neg (by omega)]
      dsimp only
      split
      · rfl
      · exact ih _
  simp only [readGsd, gsdLinear, iterTrajectory_eq raws hc, this]

example : (readGsd (sample [0, 1, 2, 3, 4, 5, 6]) (some 5) none 2 5).1.map
    (fun p => (p.2.timestep, p.1)) =
    [(0, [0]), (1, [0]), (2, [0, 1]), (3, [0, 1]), (4, [0, 1, 2]), (5, [0, 1, 2])] := by decide

/-! ## C14 -/

/-- The full property, for either reader. -/
def KeyframeLimit (raws : List (Raw Unit)) (stepsMax linear : Option Int) (interval kmax : Int) :
    Prop :=
  ∀ p ∈ (readGsd raws stepsMax linear interval kmax).1, ∀ i ∈ p.1, (i : Int) < kmax

/-- **C14 is false of the linear reader**: with `keyframe_max = 1` it hands out two keyframes. -/
theorem C14_keyframe_limit_refuted :
    ¬ (∀ (raws : List (Raw Unit)) (stepsMax linear : Option Int) (interval kmax : Int),
      OnlyCorrupt raws → 1 ≤ interval → 1 ≤ kmax →
      KeyframeLimit raws stepsMax linear interval kmax) := by
  intro h
  have := h (sample [0, 1]) none none 1 1 (onlyCorrupt_sample _) (by decide) (by decide)
    ([0, 1], ⟨1, ()⟩) (by decide) 1 (by decide)
  revert this
  decide

/-- **C14 (partial).** The full statement is `KeyframeLimit`.  The exponential reader satisfies it;
the linear reader uses at most `keyframe_max + 1` keyframes (one more than asked for). -/
theorem C14_keyframe_limit_partial (raws : List (Raw α)) (stepsMax : Option Int)
    (interval kmax : Int) (hi : 1 ≤ interval) (hk : 1 ≤ kmax) :
    (∀ linear m : Int, 1 ≤ linear → stepsToRead raws stepsMax = .ok m → 0 ≤ m →
      ∀ p ∈ (readGsd raws stepsMax (some linear) interval kmax).1, ∀ i ∈ p.1, (i : Int) < kmax) ∧
    (OnlyCorrupt raws →
      ∀ p ∈ (readGsd raws stepsMax none interval kmax).1, ∀ i ∈ p.1, (i : Int) < kmax + 1) := by
  constructor
  · intro linear m hl hm hm0 p hp i hpi
    have h2 := (C11_exponential_sound raws stepsMax interval kmax linear m hm hm0 hi hl).2.1
    have := C08_keyframe_bound m linear interval kmax hm0 hl hi p.2.timestep p.1
      (h2.subset (List.mem_map.2 ⟨p, hp, rfl⟩)) i hpi
    omega
  · intro hc p hp i hpi
    obtain ⟨j, hj⟩ := List.mem_iff_getElem?.1 hp
    obtain ⟨k, hk1, hk2⟩ := (C13_linear_reader raws stepsMax interval kmax hc hi (by omega)).2
      j p.1 p.2 hj
    rw [hk1, List.mem_range] at hpi
    omega

example : ((readGsd (sample [0, 1, 2, 3, 4]) none none 1 3).1.map Prod.fst).getLast? =
    some [0, 1, 2, 3] := by decide
example : ((readGsd (sample [0, 1, 2, 3, 4]) none (some 10) 1 3).1.map Prod.fst).getLast? =
    some [0, 1, 2] := by decide

/-! ## C15 -/

/-- **C15.** The number of steps of a file: the timestep of the last readable frame when fewer than
ten corrupt frames follow it; RuntimeError when the last ten frames are corrupt; IndexError when
the file has fewer than ten frames, all corrupt. -/
theorem C15_num_steps (pre bad : List (Raw α)) (hbad : ∀ r ∈ bad, r = .error .runtimeError) :
    (∀ f, bad.length < 10 → getNumSteps (pre ++ .ok f :: bad) = .ok f.timestep) ∧
    (bad.length = 10 → getNumSteps (pre ++ bad) = .error .runtimeError) ∧
    (bad.length < 10 → getNumSteps bad = .error .indexError) := by
  refine ⟨?_, ?_, ?_⟩
  · intro f hlen
    have hsplit : pre ++ Except.ok f :: bad = (pre ++ [Except.ok f]) ++ bad := by simp
    have hskip := numStepsLoop_skip (pre ++ Except.ok f :: bad) bad.length (10 - bad.length) 1
      (fun j hj => by rw [hsplit]; exact fromEnd_corrupt _ bad hbad (1 + j) (by omega) (by omega))
    unfold getNumSteps
    rw [show (10 : Nat) = bad.length + (10 - bad.length) by omega, hskip]
    obtain ⟨r, hr⟩ : ∃ r, 10 - bad.length = r + 1 := ⟨9 - bad.length, by omega⟩
    rw [hr, numStepsLoop]
    have hf : fromEnd (pre ++ Except.ok f :: bad) (1 + bad.length) = some (Except.ok f) := by
      rw [fromEnd_append pre (Except.ok f :: bad) _ (by simp; omega)]
      simp [Nat.add_comm]
    rw [hf]
  · intro hlen
    have hskip := numStepsLoop_skip (pre ++ bad) 10 0 1
      (fun j hj => fromEnd_corrupt _ bad hbad (1 + j) (by omega) (by omega))
    unfold getNumSteps
    rw [show (10 : Nat) = 10 + 0 by omega, hskip, numStepsLoop]
  · intro hlen
    have hskip := numStepsLoop_skip bad bad.length (10 - bad.length) 1
      (fun j hj => by
        have := fromEnd_corrupt [] bad hbad (1 + j) (by omega) (by omega)
        simpa using this)
    unfold getNumSteps
    rw [show (10 : Nat) = bad.length + (10 - bad.length) by omega, hskip]
    obtain ⟨r, hr⟩ : ∃ r, 10 - bad.length = r + 1 := ⟨9 - bad.length, by omega⟩
    rw [hr, numStepsLoop]
    have hf : fromEnd bad (1 + bad.length) = none := by
      unfold fromEnd
      rw [if_neg (by omega)]
    rw [hf]

/-- … and the exponential reader raises that exception without yielding anything. -/
theorem C15_reader_error (raws : List (Raw α)) (interval kmax linear : Int) (e : PyErr)
    (h : getNumSteps raws = .error e) :
    readGsd raws none (some linear) interval kmax = ([], some e) := by
  simp only [readGsd, gsdExponential, stepsToRead, h]

example : getNumSteps (sample [0, 5, 9] ++ List.replicate 9 (.error .runtimeError)) = .ok 9 := by
  rfl
example : getNumSteps (sample [0, 5, 9] ++ List.replicate 10 (.error .runtimeError)) =
    .error .runtimeError := by rfl
example : getNumSteps (List.replicate 3 (.error .runtimeError) : List (Raw Unit)) =
    .error .indexError := by rfl

/-! ## C16 -/

/-- **C16.** Removing the corrupt frames changes nothing, for either reader, when `steps_max` is
given (the linear reader does not even need it). -/
theorem C16_corrupt_invisible (raws : List (Raw α)) (stepsMax linear : Option Int)
    (interval kmax : Int) (h : stepsMax ≠ none ∨ linear = none) :
    readGsd (withoutCorrupt raws) stepsMax linear interval kmax =
      readGsd raws stepsMax linear interval kmax := by
  cases linear with
  | none => simp only [readGsd, gsdLinear, iterTrajectory_withoutCorrupt]
  | some l =>
    cases stepsMax with
    | none => simp at h
    | some m => simp only [readGsd, gsdExponential, stepsToRead, iterTrajectory_withoutCorrupt]

/-- Two files differing only in corrupt frames read the same. -/
theorem C16_insert_corrupt (raws raws' : List (Raw α)) (stepsMax linear : Option Int)
    (interval kmax : Int) (h : stepsMax ≠ none ∨ linear = none)
    (heq : withoutCorrupt raws = withoutCorrupt raws') :
    readGsd raws stepsMax linear interval kmax = readGsd raws' stepsMax linear interval kmax := by
  rw [← C16_corrupt_invisible raws _ _ _ _ h, heq, C16_corrupt_invisible raws' _ _ _ _ h]

example : (readGsd (sample [0, 1] ++ [.error .runtimeError] ++ sample [2, 10]) (some 10) (some 2)
    5 1) = readGsd (sample [0, 1, 2, 10]) (some 10) (some 2) 5 1 :=
  C16_insert_corrupt _ _ _ _ _ _ (by decide) (by decide)

/-! ## C17 -/

/-- **C17.** Opening a gsd trajectory yields the readable frames at positions 0, n, 2n, … in
order, whatever the progress bar. -/
theorem C17_open_trajectory_interval (raws : List (Raw α)) (bar : Progress) (n : Nat) (hn : 1 ≤ n)
    (hb : bar ≠ .other) (hc : OnlyCorrupt raws) :
    openGsd raws bar n =
      ((List.range raws.length).filterMap (fun j => readableAt raws (j * n)), none) := by
  unfold openGsd
  rw [if_neg hb, if_neg (by omega), if_neg (by omega), Int.toNat_natCast,
    openLoop_eq raws hc _ (by
      intro i hi
      unfold rangeStep at hi
      rw [List.mem_filter, List.mem_range] at hi
      exact hi.1),
    rangeStep_filterMap _ _ _ hn]
  intro i hi
  unfold readableAt
  rw [List.getElem?_eq_none hi]

/-- With interval 1 these are all the readable frames, the same that `iter_trajectory` gives. -/
theorem C17_open_trajectory_all (raws : List (Raw α)) (bar : Progress)
    (hb : bar ≠ .other) (hc : OnlyCorrupt raws) :
    openGsd raws bar 1 = (readable raws, none) := by
  have := C17_open_trajectory_interval raws bar 1 (by decide) hb hc
  rw [show ((1 : Nat) : Int) = 1 from rfl] at this
  rw [this]
  congr 1
  clear this hc hb
  simp only [Nat.mul_one]
  induction raws with
  | nil => rfl
  | cons r raws ih =>
    rw [List.length_cons, List.range_succ_eq_map, List.filterMap_cons, List.filterMap_map]
    have : (readableAt (r :: raws)) ∘ Nat.succ = readableAt raws := by
      funext j; simp [readableAt]
    rw [this, ih]
    cases r with
    | ok f => rfl
    | error e => rfl

/-- **C17**, the other intervals: none is an error, whatever the file, and a negative one gives no frames. -/
theorem C17_open_trajectory_none (raws : List (Raw α)) (bar : Progress) (hb : bar ≠ .other) (n : Int) :
    openGsd raws bar 0 = ([], some .valueError) ∧ (n < 0 → openGsd raws bar n = ([], none)) := by
  unfold openGsd
  refine ⟨by rw [if_neg hb, if_pos rfl], fun hn => ?_⟩
  rw [if_neg hb, if_neg (by omega), if_pos hn]

example : openGsd (sample [0, 1] ++ [.error .runtimeError] ++ sample [6]) .none 1 =
      (readable (sample [0, 1, 6]), none) ∧
    openGsd (sample [0, 1]) .none 0 = ([], some .valueError) ∧ openGsd (sample [0, 1]) .none (-1) = ([], none) := by
  decide

/-- Another value of the progress bar (`False` is one) is refused with ValueError, whatever the file and the
interval, when the first frame is asked for. -/
theorem C17_open_trajectory_progressbar (raws : List (Raw α)) (n : Int) :
    openGsd raws .other n = ([], some .valueError) := by
  unfold openGsd
  rw [if_pos rfl]

example : openGsd (sample [0, 1, 2, 3, 4] ++ [.error .runtimeError] ++ sample [6]) .none 2 =
    (readable (sample [0, 2, 4, 6]), none) := by decide

/-! ## C73 -/

/-- What a caller sees who keeps the pairs and looks at them at the end: the linear reader yields
one list object, so every kept index list is the final one. -/
def keptPairs (raws : List (Raw α)) (stepsMax : Option Int) (interval kmax : Int) :
    List (List Nat × GFrame α) :=
  (gsdLinear raws stepsMax interval kmax).1.map
    (fun p => (linearFinal stepsMax interval kmax (iterTrajectory raws).1 [], p.2))

/-- **C73 is false of the code**: `list(read_gsd_trajectory(...))` differs from consuming the pairs
one at a time. -/
theorem C73_kept_pairs_refuted :
    ¬ (∀ (raws : List (Raw Unit)) (stepsMax : Option Int) (interval kmax : Int), 1 ≤ interval →
      OnlyCorrupt raws →
      keptPairs raws stepsMax interval kmax = (readGsd raws stepsMax none interval kmax).1) := by
  intro h
  have := h (sample [0, 1]) none 1 5 (by decide) (onlyCorrupt_sample _)
  revert this
  decide

/-- The index list only ever grows, so the last list is an extension of every earlier one. -/
theorem linearFinal_extends (stepsMax : Option Int) (interval kmax : Int) (fe : Option PyErr) :
    ∀ (fs : List (GFrame α)) (il : List Nat),
    il <+: linearFinal stepsMax interval kmax fs il ∧
    ∀ p ∈ (linearReader stepsMax interval kmax fe fs il).1,
      p.1 <+: linearFinal stepsMax interval kmax fs il := by
  have hup : ∀ t il, il <+: updateIndex interval kmax t il := by
    intro t il
    unfold updateIndex
    split
    · exact List.prefix_append _ _
    · exact List.prefix_refl _
  intro fs
  induction fs with
  | nil => intro il; simp [linearReader, linearFinal]
  | cons f fs ih =>
    intro il
    by_cases hi : interval = 0
    · simp [linearReader, linearFinal, hi]
    · rw [linearReader, linearFinal, if_neg hi, if_neg hi]
      dsimp only
      obtain ⟨h1, h2⟩ := ih (updateIndex interval kmax f.timestep il)
      split
      · exact ⟨hup _ _, by simp⟩
      · refine ⟨(hup _ _).trans h1, ?_⟩
        intro p hp
        rw [List.mem_cons] at hp
        rcases hp with rfl | hp
        · exact h1
        · exact h2 p hp

/-- **C73 (partial).** The full statement is the equality refuted above.  What holds: kept pairs
have the same frames, and each kept index list starts with the indexes announced at the time of the
yield (it may have gained later keyframes); when no keyframe is created after the first frame
(`kmax = 0` here) nothing changes.  For the exponential reader `get_index()` makes a new list each
time, so there is nothing to prove. -/
theorem C73_kept_pairs_partial (raws : List (Raw α)) (stepsMax : Option Int) (interval kmax : Int)
    (j : Nat) (p : List Nat × GFrame α)
    (h : (readGsd raws stepsMax none interval kmax).1[j]? = some p) :
    ∃ q, (keptPairs raws stepsMax interval kmax)[j]? = some q ∧ q.2 = p.2 ∧ p.1 <+: q.1 := by
  unfold keptPairs
  simp only [readGsd] at h
  rw [List.getElem?_map, h]
  refine ⟨_, rfl, rfl, ?_⟩
  have hmem : p ∈ (linearReader stepsMax interval kmax (iterTrajectory raws).2
      (iterTrajectory raws).1 []).1 := List.mem_of_getElem? h
  exact (linearFinal_extends stepsMax interval kmax _ _ []).2 p hmem

example : keptPairs (sample [0, 1]) none 1 5 = [([0, 1], ⟨0, ()⟩), ([0, 1], ⟨1, ()⟩)] := by decide

/-! ## C74 -/

/-- **C74 is false of the code**: for a lammpstrj file `frame_interval` is ignored. -/
theorem C74_lammps_interval_refuted :
    ¬ (∀ (frames : List (GFrame Unit)) (bar : Progress) (n : Nat), 1 ≤ n → bar ≠ .other →
      (openLammps frames none bar n).1 =
        (List.range frames.length).filterMap (fun j => frames[j * n]?)) := by
  intro h
  have := h [⟨0, ()⟩, ⟨1, ()⟩] .none 2 (by decide) (by decide)
  revert this
  decide

/-- **C74 (partial).** The full statement is the one refuted above; it holds for the default
interval of 1: all the frames of the parser, then its exception if any. -/
theorem C74_lammps_interval_partial (frames : List (GFrame α)) (fe : Option PyErr)
    (bar : Progress) :
    openLammps frames fe bar 1 =
      ((List.range frames.length).filterMap (fun j => frames[j * 1]?), fe) := by
  unfold openLammps
  congr 1
  simp only [Nat.mul_one]
  induction frames with
  | nil => rfl
  | cons f frames ih =>
    rw [List.length_cons, List.range_succ_eq_map, List.filterMap_cons, List.filterMap_map]
    simp only [List.getElem?_cons_zero, Function.comp_def, Nat.succ_eq_add_one,
      List.getElem?_cons_succ]
    rw [← ih]

example : openLammps [(⟨0, ()⟩ : GFrame Unit), ⟨1, ()⟩] none .none 2 =
    ([⟨0, ()⟩, ⟨1, ()⟩], none) := rfl

end Verif.Gsd
