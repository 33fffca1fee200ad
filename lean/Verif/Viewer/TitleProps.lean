import Verif.Viewer.TitleLemmas
import Verif.Viewer.NameProps
/-!
# Property C137: the title of the plot belongs to the frame plotted
-/

namespace Verif.Viewer

open Verif.Names (Tree parseDirectory Under)

variable (env : Env)

/-- **C137 (partial).**  The full statement: on a page made by `make_document`, whatever the user does,
the title of the plot is the timestep of the frame plotted.  Proved when turning a frame into data to
plot never fails; opening files and reading frames may. -/
theorem C137_partial (hd : ∀ f i k, env.dataErr f i k = none) (files : List Str) (timers : List Nat)
    (fresh : Nat) (s : State) (h : Page env files timers fresh False s) : TitleOfPlot s := by
  refine Drawn.titleOfPlot ?_
  induction h with
  | start s h => exact makeDocument_drawn h
  | step s e _ _ hq ih =>
    exact handle_safe (drawn_draws_data hd) (fun h => h.elim) (fun _ h => h.1) e s hq ih

/-- **C137 (partial).**  The full statement as above.  Proved, whatever may fail, until the first event
that raises an exception. -/
theorem C137_quiet_partial (files : List Str) (timers : List Nat)
    (fresh : Nat) (s : State) (h : Page env files timers fresh True s) : TitleOfPlot s := by
  refine Drawn.titleOfPlot ?_
  induction h with
  | start s h => exact makeDocument_drawn h
  | step s e _ _ hq ih =>
    exact handle_safe drawn_draws_quiet (fun _ s => drawn_quiet s) (fun _ h => h.1) e s hq ih

/-- **C137 (partial).**  The full statement as above.  Proved without any assumption: the title is the
timestep of the frame the viewer holds, the one it tried to plot last. -/
theorem C137_held_partial (files : List Str) (timers : List Nat)
    (fresh : Nat) (s : State) (h : Page env files timers fresh False s) : s.title = s.frame := by
  have : Titled s := by
    induction h with
    | start s h =>
      obtain ⟨h1, f, i, k, h2, -, h3⟩ := makeDocument_drawn h
      exact ⟨h1, h3.trans h2.symm⟩
    | step s e _ _ hq ih =>
      exact handle_safe titled_draws (fun h => h.elim) (fun _ h => h.1) e s hq ih
  exact this.2

/-- The page is made whenever the viewer is: `create_doc` does not fail, and only the title differs. -/
theorem C137_document (files : List Str) (timers : List Nat) (fresh : Nat) (s : State)
    (h : create env files timers fresh = .ok s) :
    s.title = none ∧ makeDocument env files timers fresh = .ok { s with title := s.frame } := by
  obtain ⟨tree, s1, f, n, -, h2, h3, -, -, -, -, h5, h6, rfl⟩ := create_inv env h
  refine ⟨rfl, ?_⟩
  have h0 : 0 ≤ s1.index := by simp [State.index, h3]
  obtain ⟨g, m, g1, g2, g3, i, g4, g5, g6⟩ := updateTrajectory_calm env h0 h6
  have hfr := updateTrajectory_plotted h6
  unfold makeDocument
  rw [h]
  simp only
  generalize (updateTrajectory env s1).1 = s2 at g1 g3 g6 hfr
  obtain ⟨f', i', k', q1, q2, q3, q4⟩ := hfr
  have e1 : (initDoc (initMedia s2)).frame = some (f', i') := q1
  have e2 : (initDoc (initMedia s2)).selectedFile = .ok g := g1
  have e3 : (initDoc (initMedia s2)).oActive = k' := q3
  have e4 : (initDoc (initMedia s2)).plot = true := rfl
  have e5 : (initDoc (initMedia s2)).shown = some ((f', i'), k') := q2
  have e6 : (initDoc (initMedia s2)).filename = some g := g3
  generalize initDoc (initMedia s2) = s3 at e1 e2 e3 e4 e5 e6
  have e7 : updateData env s3 = ({ s3 with title := s3.frame }, none) := by
    have : updateData env s3 = ({ s3 with title := some (f', i') }, none) := by
      simp only [updateData, e1, e3, q4, e4, if_true, ← e5]
    rw [this, ← e1]
  have e8 : createFiles { s3 with title := s3.frame } = ({ s3 with title := s3.frame }, none) := by
    have : State.selectedFile { s3 with title := s3.frame } = .ok g := e2
    simp only [createFiles, this, ← e6]
  have e9 : createDoc env s3 = ({ s3 with title := s3.frame }, none) := by
    unfold createDoc andThen
    rw [e7]
    exact e8
  rw [e9]

/-- Four frames in the first file, three in the second; the second frame of each cannot be
classified. -/
def secondFails : Env :=
  { fourAndThree with dataErr := fun _ i _ => if i = 1 then some .valueError else none }

theorem secondFails_create : ∃ s, create secondFails twoFiles [] 0 = .ok s ∧
    s = initDoc (initMedia { twoBlank with
      trajectory := some ("dump-Trimer-P1.00-T0.40-ID1.gsd".toList, 4),
      frame := some ("dump-Trimer-P1.00-T0.40-ID1.gsd".toList, 0),
      shown := some (("dump-Trimer-P1.00-T0.40-ID1.gsd".toList, 0), 0),
      filename := some "dump-Trimer-P1.00-T0.40-ID1.gsd".toList }) := by
  have hup : updateTrajectory secondFails twoBlank = ({ twoBlank with
      trajectory := some ("dump-Trimer-P1.00-T0.40-ID1.gsd".toList, 4),
      frame := some ("dump-Trimer-P1.00-T0.40-ID1.gsd".toList, 0),
      shown := some (("dump-Trimer-P1.00-T0.40-ID1.gsd".toList, 0), 0),
      filename := some "dump-Trimer-P1.00-T0.40-ID1.gsd".toList }, none) := by rfl
  have hcreate : create secondFails twoFiles [] 0 = .ok (initDoc (initMedia
      (updateTrajectory secondFails twoBlank).1)) := by
    unfold create
    simp only [twoFiles_tree, twoFiles_init, hup]
  rw [hup] at hcreate
  exact ⟨_, hcreate, rfl⟩

example : ∃ s, Page secondFails twoFiles [] 0 True s ∧ s.index = 2 ∧
    s.title = some ("dump-Trimer-P1.00-T0.40-ID1.gsd".toList, 2) := by
  obtain ⟨s, h, he⟩ := secondFails_create
  have h' := (C137_document _ _ _ _ _ h).2
  subst he
  exact ⟨_, .step _ (.slide 2) (.start _ h') ⟨_, rfl, by decide, by decide⟩ (fun _ => by rfl),
    by rfl, by rfl⟩

/-- The frames of these files can all be classified, but the second of each cannot be read. -/
def secondUnread : Env :=
  { fourAndThree with readErr := fun _ i => if i = 1 then some .runtimeError else none }

example : (∀ f i k, secondUnread.dataErr f i k = none) ∧ secondUnread.readErr [] 1 ≠ none ∧
    ∃ s, Page secondUnread twoFiles [] 0 False s := by
  refine ⟨fun _ _ _ => rfl, by simp [secondUnread], ?_⟩
  have hup : (updateTrajectory secondUnread twoBlank).2 = none := by rfl
  have hcreate : ∃ s, create secondUnread twoFiles [] 0 = .ok s := by
    unfold create
    simp only [twoFiles_tree, twoFiles_init]
    rcases h : updateTrajectory secondUnread twoBlank with ⟨s, _ | e⟩
    · exact ⟨_, rfl⟩
    · rw [h] at hup
      cases hup
  obtain ⟨s, hs⟩ := hcreate
  exact ⟨_, .start _ (C137_document _ _ _ _ _ hs).2⟩

/-- **C137 is false** though the files open and all frames are read: when the data of the second frame
cannot be computed, moving the slider to it leaves the first frame plotted under the timestep of the
second. -/
theorem C137_refuted : AllOpen secondFails ∧ (∀ f i, secondFails.readErr f i = none) ∧
    ∃ (s : State) (f : Str), Page secondFails twoFiles [] 0 False s ∧
      s.shown = some ((f, 0), 0) ∧ s.title = some (f, 1) ∧ ¬ TitleOfPlot s := by
  refine ⟨fun f => ?_, fun _ _ => rfl, ?_⟩
  · simp only [secondFails, fourAndThree]
    split
    · exact ⟨4, rfl, by decide⟩
    · exact ⟨3, rfl, by decide⟩
  · obtain ⟨s, h, he⟩ := secondFails_create
    have h' := (C137_document _ _ _ _ _ h).2
    subst he
    have h1 := Page.step (quiet := False) _ (.slide 1) (.start _ h') ⟨_, rfl, by decide, by decide⟩
      (fun h => h.elim)
    refine ⟨_, "dump-Trimer-P1.00-T0.40-ID1.gsd".toList, h1, by rfl, by rfl, ?_⟩
    rintro ⟨f, i, k, q1, q2⟩
    have q1' := Option.some.inj (q1.symm.trans (show _ = some
      (("dump-Trimer-P1.00-T0.40-ID1.gsd".toList, 0), 0) by rfl))
    have q2' := Option.some.inj (q2.symm.trans (show _ = some
      ("dump-Trimer-P1.00-T0.40-ID1.gsd".toList, 1) by rfl))
    have e1 := congrArg (fun x => x.1.2) q1'
    have e2 := congrArg Prod.snd q2'
    simp only at e1 e2
    omega

end Verif.Viewer
