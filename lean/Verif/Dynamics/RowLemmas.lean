import Verif.Dynamics.Model
/-!
# What the dictionary of `compute_all` contains
-/

namespace Verif.Dynamics

open Verif.Motion

/-- The value the code stores under "scattering_function". -/
noncomputable def isfVal (d : Dyn) (sc : Bool) : Except PyErr (Option ℝ) :=
  if sc && d.waveNumber.isSome then d.isf.map some else .ok none

/-- The value the code stores under "com_struct", for a given distance. -/
noncomputable def comVal (d : Dyn) (distance : Option ℝ) : Option ℝ :=
  match distance with
  | some dist => structuralRelax false (d.displacement.map some) dist
  | none => none

/-- The value the code stores under "struct". -/
noncomputable def structVal (d : Dyn) (distance : Option ℝ) : Except PyErr (Option ℝ) :=
  if distance.isSome && d.molVector.isSome && d.motion.prevOri.isSome then d.structRelax.map some
  else .ok none

/-- The dictionary from the values. -/
def rowOf (time : ℤ) (md msd mfd : ℝ) (al isf com : Option ℝ) (mr msr r1 r2 : ℝ)
    (ar ga : Option ℝ) (ov : ℝ) (st : Option ℝ) : Dict Quantity Val :=
  [(.time, .int time), (.mean_displacement, .num (some md)), (.msd, .num (some msd)),
   (.mfd, .num (some mfd)), (.alpha, .num al), (.scattering_function, .num isf),
   (.com_struct, .num com), (.mean_rotation, .num (some mr)), (.msr, .num (some msr)),
   (.rot1, .num (some r1)), (.rot2, .num (some r2)), (.alpha_rot, .num ar),
   (.gamma, .num ga), (.overlap, .num (some ov)), (.struct, .num st)]

local macro "leaf" : tactic => `(tactic| simp [bind, Except.bind, pure, Except.pure, Except.map,
  comVal, allQuantities, Dict.set, rowOf])

/-- `quantities` step by step, without the dictionary. -/
theorem quantities_eq (argsort : List ℝ → List ℕ) (d : Dyn) (t : ℤ) (sc : Bool) :
    d.quantities argsort t sc = (do
      let al ← d.alpha
      let isf ← isfVal d sc
      let distance ← d.distance
      let ar ← d.alphaRot
      let ga ← d.gamma
      let ov ← mobileOverlap argsort d.displacement d.rotation
      let st ← structVal d distance
      pure (rowOf (d.timeDelta t) (mean d.displacement) d.msd d.mfd al isf (comVal d distance)
        d.meanRotation d.msr d.rot1 d.rot2 ar ga ov st)) := by
  unfold Dyn.quantities isfVal structVal
  cases d.alpha with
  | error e => rfl
  | ok al =>
    cases (sc && d.waveNumber.isSome) with
    | true =>
      cases d.isf with
      | error e => rfl
      | ok isf =>
        cases d.distance with
        | error e => rfl
        | ok distance =>
          cases d.alphaRot with
          | error e => rfl
          | ok ar =>
            cases d.gamma with
            | error e => rfl
            | ok ga =>
              cases mobileOverlap argsort d.displacement d.rotation with
              | error e => rfl
              | ok ov =>
                cases distance with
                | none =>
                  cases d.molVector <;> cases d.motion.prevOri <;> leaf
                | some dist =>
                  cases d.molVector with
                  | none => cases d.motion.prevOri <;> leaf
                  | some mv =>
                    cases d.motion.prevOri with
                    | none => leaf
                    | some po => cases d.structRelax <;> leaf
    | false =>
      cases d.distance with
      | error e => rfl
      | ok distance =>
        cases d.alphaRot with
        | error e => rfl
        | ok ar =>
          cases d.gamma with
          | error e => rfl
          | ok ga =>
            cases mobileOverlap argsort d.displacement d.rotation with
            | error e => rfl
            | ok ov =>
              cases distance with
              | none =>
                cases d.molVector <;> cases d.motion.prevOri <;> leaf
              | some dist =>
                cases d.molVector with
                | none => cases d.motion.prevOri <;> leaf
                | some mv =>
                  cases d.motion.prevOri with
                  | none => leaf
                  | some po => cases d.structRelax <;> leaf

end Verif.Dynamics
