import Verif.Viewer.Spec
/-!
# Vocabulary for C137
-/

namespace Verif.Viewer

/-- The title of the plot is the timestep of the frame that is plotted. -/
def TitleOfPlot (s : State) : Prop :=
  ∃ f i k, s.shown = some ((f, i), k) ∧ s.title = some (f, i)

/-- The states of a page made by `make_document`; `quiet` asks of each event whether it may raise
an exception. -/
inductive Page (env : Env) (files : List Str) (timers : List Nat) (fresh : Nat) (quiet : Prop) :
    State → Prop
  | start (s : State) : makeDocument env files timers fresh = .ok s →
      Page env files timers fresh quiet s
  | step (s : State) (e : Event) : Page env files timers fresh quiet s → e.enabled s →
      (quiet → (e.handle env s).2 = none) → Page env files timers fresh quiet (e.handle env s).1

end Verif.Viewer
