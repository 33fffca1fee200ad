import Verif.Viewer.NameLemmas
import Verif.Viewer.Props
/-!
# Property C127: what the page shows belongs together
-/

namespace Verif.Viewer

open Verif.Names (Tree parseDirectory Under)

variable (env : Env)

/-- **C127 (partial).**  The full statement: in every reachable state the chosen file is the open one,
its name is shown, and the frame plotted is the one of it at the slider.  Proved as long as no event
has raised an exception, whatever may fail. -/
theorem C127_partial (files : List Str) (timers : List Nat) (fresh : Nat) (s : State)
    (h : Calm env files timers fresh s) : Consistent s := by
  induction h with
  | start s h =>
    obtain ⟨tree, s0, f, n, -, -, h3, -, -, -, -, -, h6, rfl⟩ := create_inv env h
    have h0 : 0 ≤ s0.index := by simp [State.index, h3]
    obtain ⟨f, n, g1, g2, g3, i, g4, g5, g6⟩ := updateTrajectory_calm env h0 h6
    have hsl := updateTrajectory_noSlider env h3
    have hi : i = 0 := by
      simp only [State.index, hsl] at g5
      omega
    subst hi
    exact ⟨f, n, g1, g2, g3, 0, g4, rfl, g6⟩
  | step s e hc he hn ih =>
    exact handle_calm env ih (reachable_increment env (hc.reachable env)) e he
      (by rw [← hn])

/-- Of the two files the first has four frames, the second three. -/
def fourAndThree : Env where
  opens f := if f = "dump-Trimer-P1.00-T0.40-ID1.gsd".toList then .ok 4 else .ok 3
  readErr _ _ := none
  dataErr _ _ _ := none

theorem fourAndThree_create : ∃ s, create fourAndThree twoFiles [] 0 = .ok s ∧
    s = initDoc (initMedia { twoBlank with
      trajectory := some ("dump-Trimer-P1.00-T0.40-ID1.gsd".toList, 4),
      frame := some ("dump-Trimer-P1.00-T0.40-ID1.gsd".toList, 0),
      shown := some (("dump-Trimer-P1.00-T0.40-ID1.gsd".toList, 0), 0),
      filename := some "dump-Trimer-P1.00-T0.40-ID1.gsd".toList }) := by
  have hr : AllRead fourAndThree := ⟨fun _ _ => rfl, fun _ _ _ => rfl⟩
  obtain ⟨f, hfull, hsl, -⟩ := initDirectory_inv (parseDirectory_wf twoFiles_tree) twoFiles_init
  have hf : f = "dump-Trimer-P1.00-T0.40-ID1.gsd".toList := by
    have h1 := selectedFile_ok hfull
    have h2 : twoBlank.selectedFile = .ok "dump-Trimer-P1.00-T0.40-ID1.gsd".toList := by rfl
    rw [h2] at h1
    cases h1
    rfl
  subst hf
  have hup := updateTrajectory_fresh fourAndThree hr hfull hsl (n := 4) (by rfl) (by decide)
  have hcreate : create fourAndThree twoFiles [] 0 = .ok (initDoc (initMedia
      (updateTrajectory fourAndThree twoBlank).1)) := by
    unfold create
    simp only [twoFiles_tree, twoFiles_init, hup]
  rw [hup] at hcreate
  exact ⟨_, hcreate, rfl⟩

example : ∃ s, Calm fourAndThree twoFiles [] 0 s ∧ s.index = 2 := by
  obtain ⟨s, h, he⟩ := fourAndThree_create
  subst he
  exact ⟨_, .step _ (.slide 2) (.start _ h) ⟨_, rfl, by decide, by decide⟩ (by rfl), by rfl⟩

/-- **C127 is false**, though both files can be opened and all their frames read: with the slider at
the fourth frame of the first file, choosing the second, of three frames, ends in an IndexError, and
after going back to its first frame that frame is shown under the name of the first file. -/
theorem C127_refuted : AllOpen fourAndThree ∧ AllRead fourAndThree ∧ ∃ (s : State) (f g : Str),
    Reachable fourAndThree twoFiles [] 0 s ∧ s.selectedFile = .ok f ∧ s.trajectory = some (f, 3) ∧
    s.index = 0 ∧ s.shown = some ((f, 0), 0) ∧ s.filename = some g ∧ g ≠ f ∧
    ¬ Consistent s := by
  refine ⟨fun f => ?_, ⟨fun _ _ => rfl, fun _ _ _ => rfl⟩, ?_⟩
  · simp only [fourAndThree]
    split
    · exact ⟨4, rfl, by decide⟩
    · exact ⟨3, rfl, by decide⟩
  · obtain ⟨s, h, he⟩ := fourAndThree_create
    subst he
    have h1 := Reachable.step _ (.slide 3) (Reachable.start _ h) ⟨_, rfl, by decide, by decide⟩
    have h2 := Reachable.step _ (.iteration "2".toList) h1
      (by change "2".toList ∈ ["1".toList, "2".toList]; decide)
    have h3 := Reachable.step _ .previous h2 trivial
    refine ⟨_, "dump-Trimer-P1.00-T0.40-ID2.gsd".toList, "dump-Trimer-P1.00-T0.40-ID1.gsd".toList, h3,
      by rfl, by rfl, by rfl, by rfl, by rfl, by decide, ?_⟩
    rintro ⟨f, n, -, g2, g3, -⟩
    have e2 := Option.some.inj (g2.symm.trans (show _ = some
      ("dump-Trimer-P1.00-T0.40-ID2.gsd".toList, 3) by rfl))
    have e3 := Option.some.inj (g3.symm.trans (show _ = some
      "dump-Trimer-P1.00-T0.40-ID1.gsd".toList by rfl))
    have e4 := congrArg Prod.fst e2
    simp only at e4
    rw [e3] at e4
    exact absurd e4 (by decide)

end Verif.Viewer
