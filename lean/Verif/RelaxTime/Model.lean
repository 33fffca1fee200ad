import Mathlib.Analysis.SpecialFunctions.Exp
import Mathlib.Analysis.Real.Sqrt
import Verif.Py
/-!
# Model of the fits in `src/sdanalysis/relaxation.py`

Arrays are lists.  Times are real numbers; values are real numbers or NaN (`none`), infinite values
are left out.  Lines cited without a file are lines of `relaxation.py`.  `curve_fit` and `newton` are
parameters.  Logging is left out.
-/

namespace Verif.RelaxTime

/-- `Result`, lines 26-35: mean and error, `none` is NaN. -/
structure Result where
  mean : Option ℝ
  error : Option ℝ

/-- `Result(np.nan, np.nan)`. -/
def nanResult : Result := ⟨none, none⟩

/-- `l[i]` for an integer `i`: negative ones count from the end, IndexError outside. -/
def pyAt {α : Type} (l : List α) (i : ℤ) : Except PyErr α :=
  let j : ℤ := if i < 0 then i + l.length else i
  if 0 ≤ j then
    match l[j.toNat]? with
    | some x => .ok x
    | none => .error .indexError
  else .error .indexError

/-- `np.argmax` of booleans: the first True, 0 when there is none, ValueError for an empty array. -/
def argmaxBool (l : List Bool) : Except PyErr ℕ :=
  if l.length = 0 then .error .valueError
  else .ok (if true ∈ l then l.findIdx id else 0)

open Classical in
/-- `x < y` with NaN. -/
noncomputable def nanLt (x : Option ℝ) (y : ℝ) : Bool :=
  match x with
  | some x => decide (x < y)
  | none => false

open Classical in
/-- `x > y` with NaN. -/
noncomputable def nanGt (x : Option ℝ) (y : ℝ) : Bool :=
  match x with
  | some x => decide (y < x)
  | none => false

/-- `threshold_relaxation`, lines 132-156.  `signals`: a numpy build in which comparing an array with
NaN raises a FloatingPointError (`np.seterr(invalid="raise")` in dynamics.py). -/
noncomputable def thresholdRelaxation (signals : Bool) (time : List ℝ) (value : List (Option ℝ))
    (threshold : ℝ := 1 / Real.exp 1) (decay : Bool := true) : Except PyErr Result :=
  if signals && value.any Option.isNone then .ok nanResult
  else
    match argmaxBool (value.map (fun v => if decay then nanLt v threshold else nanGt v threshold)) with
    | .error e => .error e
    | .ok index =>
      match pyAt time index with
      | .error e => .error e
      | .ok t =>
        match pyAt time ((index : ℤ) - 1) with
        | .error e => .error e
        | .ok t' => .ok ⟨some t, some (t - t')⟩

open Classical in
/-- Not NaN, and no other value is larger. -/
noncomputable def isMax (value : List (Option ℝ)) (v : Option ℝ) : Bool :=
  match v with
  | none => false
  | some x => decide (∀ y, some y ∈ value → y ≤ x)

/-- `np.nanargmax`: the first position of the largest value that is not NaN; ValueError when there is
none. -/
noncomputable def nanargmax (value : List (Option ℝ)) : Except PyErr ℕ :=
  match value.findIdx? (isMax value) with
  | some i => .ok i
  | none => .error .valueError

/-- `a - b` with NaN. -/
noncomputable def nanSub (a b : Option ℝ) : Option ℝ :=
  match a, b with
  | some a, some b => some (a - b)
  | _, _ => none

/-- `(a + b) / 2` with NaN. -/
noncomputable def nanMid (a b : Option ℝ) : Option ℝ :=
  match a, b with
  | some a, some b => some ((a + b) / 2)
  | _, _ => none

/-- `max_time_relaxation`, lines 259-290. -/
noncomputable def maxTimeRelaxation (time : List ℝ) (value : List (Option ℝ)) :
    Except PyErr Result :=
  if time.length ≠ value.length then .error .runtimeError
  else
    match nanargmax value with
    | .error _ => .ok nanResult
    | .ok i => do
      let err ← if (i : ℤ) = (value.length : ℤ) - 1 then (do
          let a ← pyAt time i
          let b ← pyAt time ((i : ℤ) - 1)
          pure (a - b))
        else if i = 0 then (do
          let a ← pyAt time ((i : ℤ) + 1)
          let b ← pyAt time i
          pure (a - b))
        else (do
          let a ← pyAt time ((i : ℤ) + 1)
          let b ← pyAt time ((i : ℤ) - 1)
          pure ((a - b) / 2))
      let t ← pyAt time i
      pure ⟨some t, some err⟩

/-- `max_value_relaxation`, lines 293-327. -/
noncomputable def maxValueRelaxation (time : List ℝ) (value : List (Option ℝ)) :
    Except PyErr Result :=
  if time.length ≠ value.length then .error .runtimeError
  else
    match nanargmax value with
    | .error _ => .ok nanResult
    | .ok i => do
      let v ← pyAt value i
      let err ← if (i : ℤ) = (value.length : ℤ) - 1 then (do
          let b ← pyAt value ((i : ℤ) - 1)
          pure (nanSub v b))
        else if i = 0 then (do
          let b ← pyAt value ((i : ℤ) + 1)
          pure (nanSub v b))
        else (do
          let a ← pyAt value ((i : ℤ) - 1)
          let b ← pyAt value ((i : ℤ) + 1)
          pure (nanMid (nanSub v a) (nanSub v b)))
      pure ⟨v, err⟩

/-- The two fitted parameters and the diagonal of their covariance. -/
structure Fit where
  p0 : ℝ
  p1 : ℝ
  var0 : ℝ
  var1 : ℝ

/-- `np.sqrt`, FloatingPointError for a negative argument. -/
noncomputable def npSqrt (x : ℝ) : Except PyErr ℝ :=
  if x < 0 then .error .floatingPointError else .ok (Real.sqrt x)

open Classical in
/-- `np.logical_and(lo < value, value < hi)`. -/
noncomputable def between (lo hi : ℝ) (v : Option ℝ) : Bool :=
  match v with
  | some x => decide (lo < x) && decide (x < hi)
  | none => false

/-- `time[region]` and `value[region]`: where the value is strictly between `lo` and `hi`. -/
noncomputable def region (lo hi : ℝ) (time : List ℝ) (value : List (Option ℝ)) : List (ℝ × ℝ) :=
  (time.zip value).filterMap (fun p => match p.2 with
    | some x => if between lo hi (some x) then some (p.1, x) else none
    | none => none)

/-- `diffusion_constant`, lines 100-129, for arrays of equal length (otherwise the boolean index is an
IndexError).  `fit` is `curve_fit(_msd_function, …)`; of its exceptions only TypeError is caught. -/
noncomputable def diffusionConstant (signals : Bool) (fit : List (ℝ × ℝ) → Except PyErr Fit)
    (time : List ℝ) (msd : List (Option ℝ)) (dimensions : ℕ := 2) : Except PyErr Result :=
  if signals && msd.any Option.isNone then .ok nanResult
  else if (msd.filter (between 2 50)).length ≤ 2 then .ok nanResult
  else if time.length ≠ msd.length then .error .indexError
  else
    match fit (region 2 50 time msd) with
    | .error .typeError => .ok nanResult
    | .error e => .error e
    | .ok f =>
      match npSqrt f.var0, npSqrt f.var1 with
      | .ok s, .ok _ => .ok ⟨some (f.p0 / (2 * dimensions)), some (2 * s / (2 * dimensions))⟩
      | _, _ => .error .floatingPointError

/-- `compute_relaxation_value`, lines 352-391. -/
noncomputable def computeRelaxationValue (signals : Bool)
    (fit : List (ℝ × ℝ) → Except PyErr Fit) (timesteps : List ℝ) (values : List (Option ℝ))
    (relaxType : String) : Except PyErr Result :=
  if timesteps.length ≠ values.length then .error .runtimeError
  else if relaxType = "msd" then diffusionConstant signals fit timesteps values 2
  else if relaxType = "msr" then diffusionConstant signals fit timesteps values 1
  else if relaxType = "struct_msd" then
    thresholdRelaxation signals timesteps values (16 / 100) false
  else if relaxType = "alpha" ∨ relaxType = "gamma" then maxTimeRelaxation timesteps values
  else thresholdRelaxation signals timesteps values

/-- `np.argmin`: the first position of the smallest value. -/
noncomputable def argmin (l : List ℝ) : ℕ :=
  open Classical in l.findIdx (fun x => decide (∀ y ∈ l, x ≤ y))

/-- `exponential_relaxation`, lines 159-256.  `fit p0 points sigma` is `curve_fit` of the decay,
`root a b x0` is `newton` (its result may be NaN).  A comparison of a scalar with NaN is False.  The
check on line 192 can never fail.  In the last step `val_max - val_min` with NaN is NaN. -/
noncomputable def exponentialRelaxation
    (fit : ℝ × ℝ → List (ℝ × ℝ) → Option (List ℝ) → Except PyErr Fit)
    (root : ℝ → ℝ → ℝ → Except PyErr (Option ℝ))
    (time : List ℝ) (value : List (Option ℝ)) (sigma : Option (List ℝ) := none)
    (valueWidth : ℝ := 3 / 10) : Except PyErr Result :=
  if time.length ≠ value.length then .error .runtimeError
  else
    let expValue : ℝ := 1 / Real.exp 1
    let lo := expValue - valueWidth / 2
    let hi := expValue + valueWidth / 2
    let finite := (time.zip value).filterMap (fun p => p.2.map (fun x => (p.1, x)))
    let inside := finite.filter (fun p => between lo hi (some p.2))
    if inside.length ≤ 3 then .ok nanResult
    else
      let zeroEst := ((finite[argmin (finite.map (fun p => |p.2 - expValue|))]?).map Prod.fst).getD 0
      let p0 : ℝ × ℝ := open Classical in if zeroEst = 0 then (1, 0) else (1, 1 / zeroEst)
      let sig : Except PyErr (Option (List ℝ)) := match sigma with
        | none => .ok none
        | some s =>
          if s.length ≠ finite.length then .error .indexError
          else .ok (some ((s.zip finite).filterMap (fun q =>
            if between lo hi (some q.2.2) then some q.1 else none)))
      match sig with
      | .error e => .error e
      | .ok sig =>
        match fit p0 inside sig with
        | .error .runtimeError => .ok nanResult
        | .error .floatingPointError => .ok nanResult
        | .error e => .error e
        | .ok f =>
          match npSqrt f.var0, npSqrt f.var1 with
          | .ok s0, .ok s1 =>
            let finish (val : Option ℝ) (err : Option ℝ) : Except PyErr Result :=
              open Classical in
              match val with
              | some v => if v > 0 then .ok ⟨some v, err⟩ else .ok nanResult
              | none => .ok nanResult
            match root f.p0 f.p1 zeroEst with
            | .error .runtimeError => .ok nanResult
            | .error e => .error e
            | .ok val =>
              match root (f.p0 - 2 * s0) (f.p1 - 2 * s1) zeroEst with
              | .error .floatingPointError => finish val val
              | .error .runtimeError => .ok nanResult
              | .error e => .error e
              | .ok vmin =>
                match root (f.p0 + 2 * s0) (f.p1 + 2 * s1) zeroEst with
                | .error .floatingPointError => finish val val
                | .error .runtimeError => .ok nanResult
                | .error e => .error e
                | .ok vmax => finish val (nanSub vmax vmin)
          | _, _ => .ok nanResult

/-- `translate_relaxation`, lines 330-349. -/
def translateRelaxation (quantity : String) : String :=
  let translation : Dict String String :=
    [("alpha", "max_alpha_time"), ("gamma", "max_gamma_time"), ("com_struct", "tau_F"),
     ("msd", "diffusion_constant"), ("rot1", "tau_R1"), ("rot2", "tau_R2"), ("struct", "tau_S")]
  (Dict.get? translation quantity).getD quantity

end Verif.RelaxTime
