import Mathlib.Data.List.Basic
/-!
# Frames and steps on one time line

The times at which there is a frame, a step of the series, or both; and a machine with a few states that says
at which of the common times a frame is handed out when the reader passes along the line.
-/

namespace Verif.Gsd

/-- What there is at a time. -/
inductive Mark where
  | both
  | frame
  | step
  deriving DecidableEq

/-- The times of the frames and of the steps (both increasing) merged, each with what there is. -/
def timeline : List Int → List Int → List (Int × Mark)
  | [], ss => ss.map (fun s => (s, .step))
  | f :: fs, [] => (f :: fs).map (fun t => (t, .frame))
  | f :: fs, s :: ss =>
    if f = s then (f, .both) :: timeline fs ss
    else if f < s then (f, .frame) :: timeline fs (s :: ss)
    else (s, .step) :: timeline (f :: fs) ss
  termination_by fs ss => fs.length + ss.length

/-- Where the reader stands: nothing is open; frames (or steps) have gone by since; or one of the two is held
until the next of the other kind, which will be used up with it whatever its time.  The flag says whether
more of the kind that is held have gone by. -/
inductive Place where
  | level
  | framesPassed
  | stepsPassed
  | stepHeld (more : Bool)
  | frameHeld (more : Bool)
  deriving DecidableEq

/-- A frame or step is held, so that a frame which meets its step is lost. -/
def Place.holds : Place → Bool
  | .stepHeld _ => true
  | .frameHeld _ => true
  | _ => false

/-- The next place. -/
def Place.next : Place → Mark → Place
  | .level, .both => .level
  | .level, .frame => .framesPassed
  | .level, .step => .stepsPassed
  | .framesPassed, .both => .level
  | .framesPassed, .frame => .framesPassed
  | .framesPassed, .step => .stepHeld false
  | .stepsPassed, .both => .level
  | .stepsPassed, .frame => .frameHeld false
  | .stepsPassed, .step => .stepsPassed
  | .stepHeld _, .both => .stepsPassed
  | .stepHeld more, .frame => if more then .stepsPassed else .level
  | .stepHeld _, .step => .stepHeld true
  | .frameHeld _, .both => .framesPassed
  | .frameHeld _, .frame => .frameHeld true
  | .frameHeld more, .step => if more then .framesPassed else .level

/-- The common times at which nothing is held. -/
def taken : Place → List (Int × Mark) → List Int
  | _, [] => []
  | p, (t, .both) :: l => if p.holds then taken (p.next .both) l else t :: taken (p.next .both) l
  | p, (_, .frame) :: l => taken (p.next .frame) l
  | p, (_, .step) :: l => taken (p.next .step) l

/-- Nothing is held at any common time. -/
def NoneHeld : Place → List (Int × Mark) → Prop
  | _, [] => True
  | p, (_, k) :: l => (k = .both → p.holds = false) ∧ NoneHeld (p.next k) l

/-- The place at the end of the line. -/
def finish (p : Place) (l : List (Int × Mark)) : Place := l.foldl (fun q x => q.next x.2) p

/-- The steps have not run out before the frames: no frame is waiting for a step. -/
def Place.framesDone : Place → Bool
  | .framesPassed => false
  | .frameHeld _ => false
  | _ => true

end Verif.Gsd
