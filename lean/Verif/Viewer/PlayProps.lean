import Verif.Viewer.PlayLemmas
import Verif.Viewer.Props
/-!
# C179: playing, and stepping on and back
-/

namespace Verif.Viewer

open Verif.Names (Tree parseDirectory HasPT)

variable (env : Env)

/-- **C179 (partial), playing.**  The full statement: in every reachable state, playing goes on by the
increment with each tick of the timer up to the last frame, stays there, and never raises an exception.
Proved when the slider ends at the last frame, as it does once a file has been chosen. -/
theorem C179_play_partial (files : List Str) (timers : List Nat) (fresh : Nat) (s : State)
    (hr : AllRead env) (h : Reachable env files timers fresh s) (f : Str) (n i : Nat)
    (ht : s.trajectory = some (f, n)) (hsl : s.slider = some ⟨i, (n : Int) - 1⟩) (hi : i < n)
    (hf : s.frame = some (f, i)) (hs : s.shown = some ((f, i), s.oActive)) (m : Nat) :
    let s' := after env s (List.replicate m .tick)
    s'.index = min (i + m * s.increment) ((n : Int) - 1) ∧
    s'.shown = some ((f, (min (i + m * s.increment) ((n : Int) - 1)).toNat), s.oActive) ∧
    (Event.tick.handle env s').2 = none := by
  have hinc := reachable_increment env h
  obtain ⟨h1, -, -⟩ := after_ticks env hsl hinc (by omega) m
  obtain ⟨-, h5, -, -⟩ := ticks_show env hr ht hsl (by omega) (by omega) hinc (by simpa using hf)
    (by simpa using hs) m (by omega)
  obtain ⟨-, -, -, h6⟩ := ticks_show env hr ht hsl (by omega) (by omega) hinc (by simpa using hf)
    (by simpa using hs) (m + 1) (by omega)
  refine ⟨?_, h5, h6 m (by omega)⟩
  simp only [State.index, h1]

/-- The hypotheses, after opening the two files of three frames and choosing the second. -/
example : ∃ s f, Reachable threeFrames twoFiles [] 0 s ∧ s.trajectory = some (f, 3) ∧
    s.slider = some ⟨((0 : Nat) : Int), ((3 : Nat) : Int) - 1⟩ ∧ s.frame = some (f, 0) ∧
    s.shown = some ((f, 0), s.oActive) := by
  have hr : AllRead threeFrames := ⟨fun _ _ => rfl, fun _ _ _ => rfl⟩
  obtain ⟨f, hfull, hsl, -⟩ := initDirectory_inv (parseDirectory_wf twoFiles_tree) twoFiles_init
  have hup := updateTrajectory_fresh threeFrames hr hfull hsl (n := 3) rfl (by decide)
  have hcreate : create threeFrames twoFiles [] 0 = .ok (initDoc (initMedia
      (updateTrajectory threeFrames twoBlank).1)) := by
    unfold create
    simp only [twoFiles_tree, twoFiles_init, hup]
  rw [hup] at hcreate
  have hreach := Reachable.step _ (.iteration "2".toList) (Reachable.start _ hcreate)
    (by change "2".toList ∈ ["1".toList, "2".toList]; decide)
  exact ⟨_, "dump-Trimer-P1.00-T0.40-ID2.gsd".toList, hreach, by rfl, by rfl, by rfl, by rfl⟩

/-- **C179 is false** in every directory: a viewer that is played from the start shows the frames 0, 10,
20, … and then asks for the frame after the last one: an IndexError.  The last frame is not shown unless its
number is a multiple of ten. -/
theorem C179_play_refuted (files : List Str) (timers : List Nat) (fresh : Nat) (hne : files ≠ [])
    (hpt : ∀ f ∈ files, HasPT f) (ho : AllOpen env) (hr : AllRead env) :
    ∃ (s : State) (f : Str) (n m : Nat), create env files timers fresh = .ok s ∧ env.opens f = .ok n ∧
      Possible env s (.playPause :: List.replicate (m + 1) .tick) ∧
      (Event.tick.handle env (after env s (.playPause :: List.replicate m .tick))).2 = some .indexError ∧
      (after env s (.playPause :: List.replicate (m + 1) .tick)).index = n ∧
      (after env s (.playPause :: List.replicate (m + 1) .tick)).shown = some ((f, (n - 1) / 10 * 10), 0) := by
  obtain ⟨tree, hp⟩ := (Names.C58_succeeds files).2 hpt
  have hne' := tree_ne_nil hp hne
  obtain ⟨s0, f, h1, h2, h3, h4, -, -, h5, -, h6⟩ := initDirectory_full (parseDirectory_wf hp) hne' timers fresh
  obtain ⟨n, hn, hpos⟩ := ho f
  have hup := updateTrajectory_fresh env hr h2 h3 hn hpos
  set s := initDoc (initMedia (updateTrajectory env s0).1) with hs
  have hc : create env files timers fresh = .ok s := by
    unfold create
    simp only [hp, h1, hup, hs]
  set p := (Viewer.playPause s).1 with hpdef
  have hplay : s.playing = false := by rw [hs, hup]; exact h4
  have hp1 : p = { s with
      callback := some s.fresh
      timers := s.timers ++ [s.fresh]
      fresh := s.fresh + 1
      playing := true } := by
    rw [hpdef]
    unfold Viewer.playPause
    rw [hplay]
    rfl
  have q1 : p.trajectory = some (f, n) := by rw [hp1, hs, hup]; rfl
  have q2 : p.slider = some ⟨((0 : Nat) : Int), n⟩ := by
    rw [hp1, hs, hup]
    simp only [initDoc, initMedia, Option.map_some, Option.getD_some]
    congr 2
    omega
  have q3 : p.increment = 10 := by rw [hp1, hs, hup]; exact h5
  have q4 : p.frame = some (f, 0) := by rw [hp1, hs, hup]; rfl
  have q5 : p.oActive = 0 := by rw [hp1, hs, hup]; exact h6
  have q6 : p.shown = some ((f, 0), p.oActive) := by rw [q5, hp1, hs, hup, ← h6]; rfl
  have q7 : p.timers ≠ [] := by rw [hp1]; simp
  have hi : 1 ≤ p.increment := by omega
  -- the ticks that stay on frames
  have hm : min (((0 : Nat) : Int) + ((n - 1) / 10 : Nat) * p.increment) n = ((n - 1) / 10 * 10 : Nat) := by
    rw [q3]
    omega
  obtain ⟨a1, a2, a3⟩ := after_ticks env q2 hi (by omega) ((n - 1) / 10)
  obtain ⟨b1, b2, b3, -⟩ := ticks_show env hr q1 q2 (by omega) (by omega) hi q4 q6 ((n - 1) / 10)
    (by rw [hm]; omega)
  rw [hm] at a1 b1 b2
  have last := (tick_shows env hr (s := after env p (List.replicate ((n - 1) / 10) .tick))
    ((core_trajectory a3).trans q1) a1 (by omega) (by omega) (by omega) (by simpa using b1)
    (by rw [b3]; simpa using b2)).2 (by omega) (by rw [a2, q3]; omega)
  refine ⟨s, f, n, (n - 1) / 10, hc, hn, ⟨trivial, possible_ticks env q7 _⟩, last.1, ?_, ?_⟩
  · change (after env p (List.replicate ((n - 1) / 10 + 1) .tick)).index = n
    rw [after_ticks_succ]
    simp only [State.index, incrIndex_slider env a1, a2, q3]
    split <;> omega
  · change (after env p (List.replicate ((n - 1) / 10 + 1) .tick)).shown = _
    rw [after_ticks_succ, last.2.2, b2, q5, Int.toNat_natCast]

example : twoFiles ≠ [] ∧ (∀ f ∈ twoFiles, HasPT f) ∧ AllOpen threeFrames ∧ AllRead threeFrames :=
  ⟨by decide, twoFiles_hasPT, fun _ => ⟨3, rfl, by decide⟩, fun _ _ => rfl, fun _ _ _ => rfl⟩

/-- **C179, stepping on and back, exactly.**  Previous after next comes back to the same place iff there was
room for a whole increment, or the place is the first; next after previous likewise. -/
theorem C179_back_exactly (s : State) (v e : Int) (h : s.slider = some ⟨v, e⟩) (h0 : 0 ≤ v) (he : v ≤ e)
    (hi : 1 ≤ s.increment) :
    ((after env s [.next, .previous]).index = v ↔ v + s.increment ≤ e ∨ v = 0) ∧
    ((after env s [.previous, .next]).index = v ↔ s.increment ≤ v ∨ v = e) := by
  have hd : (decrIndex env s).1.increment = s.increment := by
    unfold decrIndex
    split
    · rfl
    · split
      · exact congrArg Prod.fst (setSlider_other env _ s)
      · rfl
  constructor
  · simp only [after, Event.handle, State.index, decrIndex_slider env (incrIndex_slider env h),
      incrIndex_increment]
    split_ifs <;> omega
  · simp only [after, Event.handle, State.index, incrIndex_slider env (decrIndex_slider env h), hd]
    split_ifs <;> omega

/-- With an increment of 10 and the last place 12: from 5 to 12 and back to 2. -/
example (s : State) (h : s.slider = some ⟨5, 12⟩) (hi : s.increment = 10) :
    (after env s [.next, .previous]).index ≠ 5 := by
  rw [Ne, (C179_back_exactly env s 5 12 h (by omega) (by omega) (by omega)).1, hi]
  omega

end Verif.Viewer
