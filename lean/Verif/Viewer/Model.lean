import Verif.Names.Model
/-!
# Model of `TrimerFigure`, `src/sdanalysis/figures/interactive_config.py`

Lines cited without a file are lines of `interactive_config.py`.  A handler takes the state of the
viewer to the state afterwards and the exception it raised, if any; what was assigned before the
exception stays.  Setting the value of a bokeh widget runs the callback registered for it at once,
when the value is a new one; its exception goes to whoever set the value.

Simplifications: drawing is left out, an exception raised by it is given by the environment; the
labels and options of the widgets are the lists stored beside them.
-/

namespace Verif.Viewer

open Verif.Names (Tree parseDirectory)

/-- Text. -/
abbrev Str := List Char

/-- The files: how `gsd.hoomd.open` ends (with the number of frames), the exception raised by reading
a frame and turning it into a `HoomdFrame`, and the one raised by computing the data to plot with a
given classification algorithm. -/
structure Env where
  opens : Str → Except PyErr Nat
  readErr : Str → Nat → Option PyErr
  dataErr : Str → Nat → Nat → Option PyErr

/-- The slider for the frame. -/
structure Slider where
  value : Int
  finish : Int

/-- The attributes of a `TrimerFigure`.  `slider` is `none` before line 296 has run (reading it is an
AttributeError).  `frame` is the file and index of the frame in `_frame`, `shown` the frame and classification algorithm
of the plotted data.  `plot` tells whether `plot` has been made (line 421), `title` is the frame whose
timestep is its title, `none` for the title "Timestep 0" it is made with.  `timers` are the periodic
callbacks registered with the document, `fresh` is used to name new ones. -/
structure State where
  tree : Tree
  pressures : List Str
  pActive : Nat
  temps : List Str
  tValue : Str
  crystals : List Str
  cActive : Nat
  iters : List Str
  iValue : Str
  trajectory : Option (Str × Nat)
  slider : Option Slider
  increment : Int
  frame : Option (Str × Nat)
  oActive : Nat
  shown : Option ((Str × Nat) × Nat)
  filename : Option Str
  plot : Bool
  title : Option (Str × Nat)
  playing : Bool
  callback : Option Nat
  timers : List Nat
  fresh : Nat

/-- A handler. -/
abbrev Handler := State → State × Option PyErr

/-- One handler after the other. -/
def andThen (a b : Handler) : Handler := fun s =>
  match a s with
  | (s', none) => b s'
  | (s', some e) => (s', some e)

/-- `sorted(list(d.keys()))`. -/
def sortedKeys {ν : Type} (d : Dict Str ν) : List Str :=
  (d.map Prod.fst).mergeSort (fun a b => decide (a ≤ b))

/-- `d[k]`. -/
def key {ν : Type} (d : Dict Str ν) (k : Str) : Except PyErr ν :=
  match Dict.get? d k with
  | some v => .ok v
  | none => .error .keyError

/-- `l[i]` for `i` from 0. -/
def at' (l : List Str) (i : Nat) : Except PyErr Str :=
  match l[i]? with
  | some x => .ok x
  | none => .error .indexError

/-- The property `pressure`, lines 153-157. -/
def State.pressure (s : State) : Except PyErr Str := at' s.pressures s.pActive

/-- The property `temperature`, lines 159-163. -/
def State.temperature (s : State) : Str := s.tValue

/-- The property `crystal`, lines 165-172. -/
def State.crystal (s : State) : Except PyErr Str := at' s.crystals s.cActive

/-- `self.variable_selection[self.pressure]`. -/
def State.byPressure (s : State) :
    Except PyErr (Dict Str (Dict Str (Dict Str Str))) :=
  match s.pressure with
  | .error e => .error e
  | .ok p => key s.tree p

/-- `self.variable_selection[self.pressure][self.temperature]`. -/
def State.byTemperature (s : State) : Except PyErr (Dict Str (Dict Str Str)) :=
  match s.byPressure with
  | .error e => .error e
  | .ok d => key d s.temperature

/-- `self.variable_selection[self.pressure][self.temperature][self.crystal]`. -/
def State.byCrystal (s : State) : Except PyErr (Dict Str Str) :=
  match s.byTemperature with
  | .error e => .error e
  | .ok d =>
    match s.crystal with
    | .error e => .error e
    | .ok c => key d c

/-- `get_selected_file`, lines 232-239; pressures and temperatures are never `None` once the
directory has been read. -/
def State.selectedFile (s : State) : Except PyErr Str :=
  match s.byCrystal with
  | .error e => .error e
  | .ok d => key d s.iValue

/-- The property `index`, lines 248-253. -/
def State.index (s : State) : Int :=
  match s.slider with
  | some sl => sl.value
  | none => 0

/-- The index of the frame that `trajectory[i]` reads: negative indices count from the end. -/
def frameIndex (n : Nat) (i : Int) : Except PyErr Nat :=
  if 0 ≤ i then (if i < n then .ok i.toNat else .error .indexError)
  else if -(n : Int) ≤ i then .ok (n + i).toNat else .error .indexError

variable (env : Env)

/-- `update_data`, lines 359-366; the title is set before the data to plot is computed. -/
def updateData : Handler := fun s =>
  match s.frame with
  | none => (s, none)
  | some (f, i) =>
    match env.dataErr f i s.oActive with
    | some e => ({ s with title := if s.plot then some (f, i) else s.title }, some e)
    | none => ({ s with title := if s.plot then some (f, i) else s.title,
                        shown := some ((f, i), s.oActive) }, none)

/-- `update_frame`, lines 241-243.  Before a file is open the trajectory is `[None]`, of which a
frame cannot be made. -/
def updateFrame : Handler := fun s =>
  match s.trajectory with
  | none => (s, some .attributeError)
  | some (f, n) =>
    match frameIndex n s.index with
    | .error e => (s, some e)
    | .ok i =>
      match env.readErr f i with
      | some e => (s, some e)
      | none => updateData env { s with frame := some (f, i) }

/-- `self._trajectory_slider.value = v`: the callback is `update_frame`, line 304. -/
def setSlider (v : Int) : Handler := fun s =>
  match s.slider with
  | none => (s, some .attributeError)
  | some sl =>
    if sl.value = v then (s, none)
    else updateFrame env { s with slider := some { sl with value := v } }

/-- `self._trajectory_slider.end = v`. -/
def setEnd (v : Int) : Handler := fun s =>
  match s.slider with
  | none => (s, some .attributeError)
  | some sl => ({ s with slider := some { sl with finish := v } }, none)

/-- Lines 280-282: shortening the slider. -/
def clampSlider (n : Nat) : Handler := fun s =>
  match s.slider with
  | none => (s, some .attributeError)
  | some sl =>
    if sl.value > n then andThen (setSlider env ((n : Int) - 1)) (setEnd ((n : Int) - 1)) s
    else setEnd ((n : Int) - 1) s

/-- `try: … except AttributeError: pass`, lines 279-284. -/
def tryAttribute (h : Handler) : Handler := fun s =>
  match h s with
  | (s', some .attributeError) => (s', none)
  | r => r

/-- The text of lines 289-291. -/
def showName (f : Str) : Handler := fun s => ({ s with filename := some f }, none)

/-- `update_current_trajectory`, lines 273-293. -/
def updateTrajectory : Handler := fun s =>
  match s.selectedFile with
  | .error e => (s, some e)
  | .ok f =>
    match env.opens f with
    | .error e => (s, some e)
    | .ok n =>
      andThen (tryAttribute (clampSlider env n)) (andThen (updateFrame env) (showName f))
        { s with trajectory := some (f, n) }

/-- `self._iter_index_button.value = v`, with its callback (line 151). -/
def setIter (v : Str) : Handler := fun s =>
  if s.iValue = v then (s, none) else updateTrajectory env { s with iValue := v }

/-- `update_index_button`, lines 197-207. -/
def updateIndex : Handler := fun s =>
  match s.byCrystal with
  | .error e => (s, some e)
  | .ok d =>
    match at' (sortedKeys d) 0 with
    | .error e => ({ s with iters := sortedKeys d }, some e)
    | .ok i =>
      andThen (setIter env i) (updateTrajectory env) { s with iters := sortedKeys d }

/-- `self._crystal_button.active = 0`, with its callback (line 139). -/
def setCrystal (k : Nat) : Handler := fun s =>
  if s.cActive = k then (s, none) else updateIndex env { s with cActive := k }

/-- `update_crystal_button`, lines 188-195. -/
def updateCrystal : Handler := fun s =>
  match s.byTemperature with
  | .error e => (s, some e)
  | .ok d =>
    andThen (setCrystal env 0) (updateIndex env) { s with crystals := sortedKeys d }

/-- `self._temperature_button.value = v`, with its callback (line 130). -/
def setTemperature (v : Str) : Handler := fun s =>
  if s.tValue = v then (s, none) else updateCrystal env { s with tValue := v }

/-- `update_temperature_button`, lines 181-186. -/
def updateTemperature : Handler := fun s =>
  match s.byPressure with
  | .error e => (s, some e)
  | .ok d =>
    match at' (sortedKeys d) 0 with
    | .error e => ({ s with temps := sortedKeys d }, some e)
    | .ok t =>
      andThen (setTemperature env t) (updateCrystal env) { s with temps := sortedKeys d }

/-- `_incr_index`, lines 323-328. -/
def incrIndex : Handler := fun s =>
  match s.slider with
  | none => (s, some .attributeError)
  | some sl =>
    if sl.value < sl.finish then setSlider env (min (sl.value + s.increment) sl.finish) s
    else (s, none)

/-- `_decr_index`, lines 330-335; the slider starts at 0. -/
def decrIndex : Handler := fun s =>
  match s.slider with
  | none => (s, some .attributeError)
  | some sl =>
    if sl.value > 0 then setSlider env (max (sl.value - s.increment) 0) s
    else (s, none)

/-- `_play_pause_toggle`, lines 371-377.  `remove_periodic_callback` is a ValueError for a callback
that is not registered. -/
def playPause : Handler := fun s =>
  if s.playing then
    match s.callback with
    | none => (s, some .valueError)
    | some c =>
      if c ∈ s.timers then ({ s with timers := s.timers.erase c, playing := false }, none)
      else (s, some .valueError)
  else ({ s with callback := some s.fresh, timers := s.timers ++ [s.fresh], fresh := s.fresh + 1,
                 playing := true }, none)

/-- What the user, or the timer, does. -/
inductive Event where
  | pressure (i : Nat)
  | temperature (v : Str)
  | crystal (i : Nat)
  | iteration (v : Str)
  | slide (v : Int)
  | next
  | previous
  | tick
  | increment (k : Int)
  | order (k : Nat)
  | playPause

/-- The events the widgets allow: the choices they show, the range of the sliders (lines 296-321), and
a tick of the timer when one is registered. -/
def Event.enabled (s : State) : Event → Prop
  | .pressure i => i < s.pressures.length
  | .temperature v => v ∈ s.temps
  | .crystal i => i < s.crystals.length
  | .iteration v => v ∈ s.iters
  | .slide v => ∃ sl, s.slider = some sl ∧ 0 ≤ v ∧ v ≤ sl.finish
  | .tick => s.timers ≠ []
  | .increment k => 1 ≤ k ∧ k ≤ 100
  | .next | .previous | .order _ | .playPause => True

/-- The handler of an event, as registered on lines 120, 130, 139, 151, 263, 304-313. -/
def Event.handle : Event → Handler
  | .pressure i => fun s =>
    if s.pActive = i then (s, none) else updateTemperature env { s with pActive := i }
  | .temperature v => setTemperature env v
  | .crystal i => setCrystal env i
  | .iteration v => setIter env v
  | .slide v => setSlider env v
  | .next => incrIndex env
  | .previous => decrIndex env
  | .tick => incrIndex env
  | .increment k => fun s => ({ s with increment := k }, none)
  | .order k => fun s => updateFrame env { s with oActive := k }
  | .playPause => Viewer.playPause

/-- The viewer before the first trajectory is open: lines 77-151 with the lists given by
`initialise_directory`. -/
def blank (tree : Tree) (ps ts cs is : List Str) (t i : Str) (timers : List Nat) (fresh : Nat) :
    State where
  tree := tree
  pressures := ps
  pActive := 0
  temps := ts
  tValue := t
  crystals := cs
  cActive := 0
  iters := is
  iValue := i
  trajectory := none
  slider := none
  increment := 10
  frame := none
  oActive := 0
  shown := none
  filename := none
  plot := false
  title := none
  playing := false
  callback := none
  timers := timers
  fresh := fresh

/-- `initialise_directory`, lines 109-151.  `timers` are the callbacks of the document before. -/
def initDirectory (tree : Tree) (timers : List Nat) (fresh : Nat) : Except PyErr State :=
  match at' (sortedKeys tree) 0 with
  | .error e => .error e
  | .ok p =>
    match key tree p with
    | .error e => .error e
    | .ok d1 =>
      match at' (sortedKeys d1) 0 with
      | .error e => .error e
      | .ok t =>
        match key d1 t with
        | .error e => .error e
        | .ok d2 =>
          match at' (sortedKeys d2) 0 with
          | .error e => .error e
          | .ok c =>
            match key d2 c with
            | .error e => .error e
            | .ok d3 =>
              match at' (sortedKeys d3) 0 with
              | .error e => .error e
              | .ok i => .ok (blank tree (sortedKeys tree) (sortedKeys d1) (sortedKeys d2)
                  (sortedKeys d3) t i timers fresh)

/-- `initialise_media_interface`, lines 295-321: the slider ends at the number of frames. -/
def initMedia (s : State) : State :=
  { s with slider := some ⟨0, max ((s.trajectory.map Prod.snd).getD 1 : Nat) 1⟩ }

/-- `initialise_doc`, lines 420-436. -/
def initDoc (s : State) : State := { s with plot := true, title := none }

/-- `TrimerFigure.__init__`, lines 77-107, for a directory with the given files. -/
def create (files : List Str) (timers : List Nat) (fresh : Nat) : Except PyErr State :=
  match parseDirectory files with
  | .error e => .error e
  | .ok tree =>
    match initDirectory tree timers fresh with
    | .error e => .error e
    | .ok s =>
      match updateTrajectory env s with
      | (_, some e) => .error e
      | (s', none) => .ok (initDoc (initMedia s'))

/-- `create_files_interface`, lines 209-230: a new place for the name of the file, which is empty
until the file has been found.  The selected file is never `None`, so the column that is returned is
always defined. -/
def createFiles : Handler := fun s =>
  match s.selectedFile with
  | .error e => ({ s with filename := none }, some e)
  | .ok f => ({ s with filename := some f }, none)

/-- `create_doc`, lines 438-449, without laying out the widgets. -/
def createDoc : Handler := andThen (updateData env) createFiles

/-- `make_document`, lines 452-456. -/
def makeDocument (files : List Str) (timers : List Nat) (fresh : Nat) : Except PyErr State :=
  match create env files timers fresh with
  | .error e => .error e
  | .ok s =>
    match createDoc env s with
    | (_, some e) => .error e
    | (s', none) => .ok s'

/-- The states that can be reached. -/
inductive Reachable (files : List Str) (timers : List Nat) (fresh : Nat) : State → Prop
  | start (s : State) : create env files timers fresh = .ok s → Reachable files timers fresh s
  | step (s : State) (e : Event) : Reachable files timers fresh s → e.enabled s →
      Reachable files timers fresh (e.handle env s).1

end Verif.Viewer
