import Verif.Process.Model
/-!
# Vocabulary for the properties of `process_file`
-/

namespace Verif.Process

variable {ι Φ D R ρ σ ν : Type} [DecidableEq ι]

/-- The pairs of keyframe and frame that are to be looked at, in reading order: every index of every
frame that has positions. -/
def visitsOf (E : Env Φ D R ρ σ ν) (pairs : List (List ι × Φ)) : List (ι × Φ) :=
  pairs.flatMap (fun p => if E.numPos p.2 = 0 then [] else p.1.map (fun k => (k, p.2)))

/-- The frames handed out with index `k`. -/
def framesOf (k : ι) (visits : List (ι × Φ)) : List Φ :=
  visits.filterMap (fun v => if v.1 = k then some v.2 else none)

/-- A frame for one pair of trackers on their own: the trackers afterwards, and the row of dynamics
if nothing was raised. -/
def soloStep (E : Env Φ D R ρ σ ν) (dr : D × R) (f : Φ) : (D × R) × Option ρ :=
  let r1 := match E.custom with
    | none => dr.2
    | some set => (set dr.2).1
  match E.computeAll dr.1 f with
  | (d, .error _) => ((d, r1), none)
  | (d, .ok row) =>
    match E.relaxAdd r1 f with
    | (r, some _) => ((d, r), none)
    | (r, none) => ((d, r), some row)

/-- Trackers made from the first frame and shown all of the frames, the first included: their final
state and the rows. -/
def solo (E : Env Φ D R ρ σ ν) : List Φ → Option ((D × R) × List ρ)
  | [] => none
  | f :: fs =>
    match E.newDyn f, E.newRelax f with
    | .ok d, .ok r => some ((f :: fs).foldl (fun s f =>
        ((soloStep E s.1 f).1, s.2 ++ (soloStep E s.1 f).2.toList)) ((d, r), []))
    | _, _ => none

/-- The rows of such trackers. -/
def soloRows (E : Env Φ D R ρ σ ν) (fs : List Φ) : List ρ := ((solo E fs).map Prod.snd).getD []

/-- The molecular relaxations of such trackers. -/
def soloSummary (E : Env Φ D R ρ σ ν) (fs : List Φ) : List σ :=
  ((solo E fs).map (fun s => E.summary s.1.2)).getD []

/-- The row that such trackers give for `f` after having seen `past`; `none` if they raise. -/
def outcome (E : Env Φ D R ρ σ ν) (past : List Φ) (f : Φ) : Option ρ :=
  match solo E past with
  | some s => (soloStep E s.1 f).2
  | none => match E.newDyn f, E.newRelax f with
    | .ok d, .ok r => (soloStep E (d, r) f).2
    | _, _ => none

/-- The rows expected for the visits, one per visit unless its own trackers raise. -/
def expected (E : Env Φ D R ρ σ ν) (past : List (ι × Φ)) : List (ι × Φ) → List (ι × ρ)
  | [] => []
  | (k, f) :: vs =>
    ((outcome E (framesOf k past) f).map (fun r => (k, r))).toList ++
      expected E (past ++ [(k, f)]) vs

/-- The dynamics in a row of the table for keyframe `k`. -/
def dynOf (k : ι) : Rec ι ρ σ ν → Option ρ
  | .dyn k' r _ => if k' = k then some r else none
  | .mol _ _ _ _ => none

/-- The dynamics and keyframe of a row of the table. -/
def dynPair : Rec ι ρ σ ν → Option (ι × ρ)
  | .dyn k r _ => some (k, r)
  | .mol _ _ _ _ => none

/-- The molecule and relaxation in a row of the table for keyframe `k`. -/
def molOf (k : ι) : Rec ι ρ σ ν → Option (Nat × σ)
  | .mol k' m r _ => if k' = k then some (m, r) else none
  | .dyn _ _ _ => none

/-- What the trackers are asked for in C26: the dynamics remember the time of their first frame and
give the time since then. -/
structure Timed (E : Env Φ D R ρ σ ν) (stamp : Φ → Int) (time : ρ → Int) (start : D → Int) :
    Prop where
  new : ∀ f d, E.newDyn f = .ok d → start d = stamp f
  keep : ∀ d f, start (E.computeAll d f).1 = start d
  row : ∀ d f r, (E.computeAll d f).2 = .ok r → time r = stamp f - start d

end Verif.Process
