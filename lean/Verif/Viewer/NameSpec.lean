import Verif.Viewer.Spec
/-!
# Vocabulary for C127
-/

namespace Verif.Viewer

/-- Everything the page shows belongs together: the file chosen with the widgets is the open one, its
name is shown, the slider is at one of its frames, and that frame is plotted with the chosen
algorithm. -/
def Consistent (s : State) : Prop :=
  ∃ f n, s.selectedFile = .ok f ∧ s.trajectory = some (f, n) ∧ s.filename = some f ∧
    ∃ i : Nat, i < n ∧ s.index = (i : Int) ∧ s.shown = some ((f, i), s.oActive)

/-- The states reached by events that raised no exception. -/
inductive Calm (env : Env) (files : List Str) (timers : List Nat) (fresh : Nat) : State → Prop
  | start (s : State) : create env files timers fresh = .ok s → Calm env files timers fresh s
  | step (s : State) (e : Event) : Calm env files timers fresh s → e.enabled s →
      (e.handle env s).2 = none → Calm env files timers fresh (e.handle env s).1

end Verif.Viewer
