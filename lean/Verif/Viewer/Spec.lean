import Verif.Names.Spec
import Verif.Viewer.Model
/-!
# Vocabulary for the properties of the viewer
-/

namespace Verif.Viewer

open Verif.Names (Under)

/-- What the four widgets show. -/
structure Selected (s : State) (p t c i : Str) : Prop where
  hp : s.pressures[s.pActive]? = some p
  ht : s.tValue = t
  hc : s.crystals[s.cActive]? = some c
  hi : s.iValue = i

/-- The widgets offer exactly the values of files of the directory, given the choices before. -/
structure Offers (s : State) (files : List Str) (p t c : Str) : Prop where
  pressures : ∀ x, x ∈ s.pressures ↔ ∃ f ∈ files, ∃ t c i, Under f x t c i
  temps : ∀ x, x ∈ s.temps ↔ ∃ f ∈ files, ∃ c i, Under f p x c i
  crystals : ∀ x, x ∈ s.crystals ↔ ∃ f ∈ files, ∃ i, Under f p t x i
  iters : ∀ x, x ∈ s.iters ↔ ∃ f ∈ files, Under f p t c x

/-- Every file can be opened and has a frame. -/
def AllOpen (env : Env) : Prop := ∀ f, ∃ n, env.opens f = .ok n ∧ 0 < n

/-- Every frame can be read and plotted. -/
def AllRead (env : Env) : Prop :=
  (∀ f i, env.readErr f i = none) ∧ (∀ f i k, env.dataErr f i k = none)

/-- The events that select another file. -/
def Event.selects : Event → Prop
  | .pressure _ | .temperature _ | .crystal _ | .iteration _ => True
  | _ => False

/-- The number of clicks on the play/pause button. -/
def clicks (l : List Event) : Nat :=
  l.countP (fun e => match e with
    | .playPause => true
    | _ => false)

/-- The state after a history of events. -/
def after (env : Env) : State → List Event → State
  | s, [] => s
  | s, e :: l => after env (e.handle env s).1 l

/-- Every event of the history is possible when its turn comes. -/
def Possible (env : Env) : State → List Event → Prop
  | _, [] => True
  | s, e :: l => e.enabled s ∧ Possible env (e.handle env s).1 l

/-- The slider is at a frame of the open trajectory, and that frame is shown with the chosen
classification algorithm. -/
def ShowsIndex (s : State) : Prop :=
  ∃ f n i, s.trajectory = some (f, n) ∧ i < n ∧ s.index = (i : Int) ∧ s.frame = some (f, i) ∧
    s.shown = some ((f, i), s.oActive)

/-- The slider ends at the last frame of the open trajectory. -/
def EndsAtLast (s : State) : Prop :=
  ∃ f n sl, s.trajectory = some (f, n) ∧ s.slider = some sl ∧ sl.finish = (n : Int) - 1

end Verif.Viewer
