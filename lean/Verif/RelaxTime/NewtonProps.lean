import Verif.RelaxTime.NewtonLemmas
import Verif.RelaxTime.Spec
/-!
# C104: the exponential fit recovers an exponential law
-/

namespace Verif.RelaxTime

/-! ## The derivatives -/

/-- **C104**: `_ddx_exponential_decay` is the derivative of `_exponential_decay`. -/
theorem C104_derivative (x a b c : ℝ) :
    HasDerivAt (fun x => exponentialDecay x a b c) (ddxExponentialDecay x a b c) x := by
  unfold exponentialDecay ddxExponentialDecay
  have h : HasDerivAt (fun x : ℝ => -b * x) (-b) x := by simpa using (hasDerivAt_id x).const_mul (-b)
  have h2 := ((h.exp).const_mul a).add_const c
  have e : -b * a * Real.exp (-b * x) = a * (Real.exp (-b * x) * -b) := by ring
  rw [e]
  exact h2

/-- **C104**: `_d2dx2_exponential_decay` is the derivative of `_ddx_exponential_decay`. -/
theorem C104_second_derivative (x a b c : ℝ) :
    HasDerivAt (fun x => ddxExponentialDecay x a b c) (d2dx2ExponentialDecay x a b c) x := by
  unfold ddxExponentialDecay d2dx2ExponentialDecay
  have h : HasDerivAt (fun x : ℝ => -b * x) (-b) x := by simpa using (hasDerivAt_id x).const_mul (-b)
  have h2 := (h.exp).const_mul (-b * a)
  have e : b * b * a * Real.exp (-b * x) = -b * a * (Real.exp (-b * x) * -b) := by ring
  rw [e]
  exact h2

/-- At 2, for the decay of amplitude 3 and rate 1/2. -/
example : HasDerivAt (fun x => exponentialDecay x 3 (1 / 2) 0) (-(3 / 2 : ℝ) * Real.exp (-1)) 2 ∧
    HasDerivAt (fun x => ddxExponentialDecay x 3 (1 / 2) 0) ((3 / 4 : ℝ) * Real.exp (-1)) 2 := by
  refine ⟨?_, ?_⟩
  · convert C104_derivative 2 3 (1 / 2) 0 using 1
    unfold ddxExponentialDecay
    ring_nf
  · convert C104_second_derivative 2 3 (1 / 2) 0 using 1
    unfold d2dx2ExponentialDecay
    ring_nf

/-! ## The fit -/

theorem decayError_nonneg (points : List (ℝ × ℝ)) (a b : ℝ) : 0 ≤ decayError points a b := by
  unfold decayError
  apply List.sum_nonneg
  intro x hx
  obtain ⟨p, -, rfl⟩ := List.mem_map.1 hx
  positivity

theorem decayError_zero {points : List (ℝ × ℝ)} {a b : ℝ} (h : decayError points a b = 0) :
    ∀ p ∈ points, a * Real.exp (-b * p.1) = p.2 := by
  induction points with
  | nil => intro p hp; cases hp
  | cons q l ih =>
    have hq : decayError (q :: l) a b = (a * Real.exp (-b * q.1) - q.2) ^ 2 + decayError l a b := by
      simp [decayError]
    have h1 := decayError_nonneg l a b
    have h2 := sq_nonneg (a * Real.exp (-b * q.1) - q.2)
    intro p hp
    rcases List.mem_cons.1 hp with rfl | hp
    · have : (a * Real.exp (-b * p.1) - p.2) ^ 2 = 0 := by linarith
      have := (pow_eq_zero_iff two_ne_zero).1 this
      linarith
    · exact ih (by linarith) p hp

theorem decayError_exact {points : List (ℝ × ℝ)} {a b : ℝ}
    (h : ∀ p ∈ points, p.2 = a * Real.exp (-b * p.1)) : decayError points a b = 0 := by
  unfold decayError
  have : points.map (fun p => (a * Real.exp (-b * p.1) - p.2) ^ 2) = points.map (fun _ => 0) := by
    apply List.map_congr_left
    intro p hp
    rw [h p hp]; ring
  rw [this]
  simp

/-- Two different times determine a decay. -/
theorem decay_unique {a b a' b' t s : ℝ} (ha : 0 < a) (hts : t ≠ s)
    (h1 : a' * Real.exp (-b' * t) = a * Real.exp (-b * t))
    (h2 : a' * Real.exp (-b' * s) = a * Real.exp (-b * s)) : a' = a ∧ b' = b := by
  have ha' : 0 < a' := by
    have : 0 < a' * Real.exp (-b' * t) := by rw [h1]; exact mul_pos ha (Real.exp_pos _)
    exact (pos_iff_pos_of_mul_pos this).2 (Real.exp_pos _)
  have l1 := congrArg Real.log h1
  have l2 := congrArg Real.log h2
  rw [Real.log_mul ha'.ne' (Real.exp_pos _).ne', Real.log_mul ha.ne' (Real.exp_pos _).ne', Real.log_exp,
    Real.log_exp] at l1 l2
  have hb : b' = b := by
    have : (b - b') * (t - s) = 0 := by linear_combination l1 - l2
    rcases mul_eq_zero.1 this with h | h
    · linarith
    · exact absurd (sub_eq_zero.1 h) hts
  refine ⟨?_, hb⟩
  subst hb
  exact mul_right_cancel₀ (Real.exp_pos _).ne' h1

/-- `argmin` is a position of a smallest value. -/
theorem argmin_spec {l : List ℝ} (h : l ≠ []) :
    ∃ x, l[argmin l]? = some x ∧ ∀ y ∈ l, x ≤ y := by
  classical
  obtain ⟨m, hm, hle⟩ : ∃ m ∈ l, ∀ y ∈ l, m ≤ y := by
    clear * - h
    induction l with
    | nil => exact absurd rfl h
    | cons a l ih =>
      by_cases hl : l = []
      · subst hl
        exact ⟨a, by simp, by simp⟩
      · obtain ⟨m, hm, hle⟩ := ih hl
        rcases le_total a m with hc | hc
        · refine ⟨a, by simp, ?_⟩
          intro y hy
          rcases List.mem_cons.1 hy with rfl | hy
          · exact le_rfl
          · exact hc.trans (hle y hy)
        · refine ⟨m, by simp [hm], ?_⟩
          intro y hy
          rcases List.mem_cons.1 hy with rfl | hy
          · exact hc
          · exact hle y hy
  have hlt : argmin l < l.length := by
    unfold argmin
    apply List.findIdx_lt_length_of_exists
    refine ⟨m, hm, ?_⟩
    simp only [decide_eq_true_eq]
    exact hle
  refine ⟨l[argmin l], List.getElem?_eq_getElem hlt, ?_⟩
  have hlt' := hlt
  unfold argmin at hlt'
  have := List.findIdx_getElem (w := hlt')
  rw [decide_eq_true_eq] at this
  exact this

/-- **C104**.  Values which, near 1/e, lie on the decay `a exp(-b t)`, at least four of them and at two
different times; a decay whose root is beyond the tolerance; a rate that is at least `10 ** -1000`; and a
least squares solver that returns.  Then Newton's method converges and the result is the time at which the
decay reaches 1/e, to within the tolerance of 1e-4, with an error of zero. -/
theorem C104_recovers {fit : ℝ × ℝ → List (ℝ × ℝ) → Option (List ℝ) → Except PyErr Fit}
    (hfit : DecayLeastSquares fit) {time : List ℝ} {value : List (Option ℝ)}
    (hlen : time.length = value.length) {width : ℝ} (hw : width ≤ 3 / 10) {a b τ : ℝ}
    (ha : 0 < a) (hb : (1 / 10) ^ 1000 ≤ b) (hτ : a * Real.exp (-b * τ) = 1 / Real.exp 1)
    (hpos : 1 / 10000 < τ)
    (hdecay : ∀ t x, (t, some x) ∈ time.zip value → |x - 1 / Real.exp 1| < width / 2 →
      x = a * Real.exp (-b * t))
    (hfour : 4 ≤ (value.filter (fun v => v.any (fun x =>
      open Classical in decide (|x - 1 / Real.exp 1| < width / 2)))).length)
    (htwo : ∃ t x s y, (t, some x) ∈ time.zip value ∧ (s, some y) ∈ time.zip value ∧ t ≠ s ∧
      |x - 1 / Real.exp 1| < width / 2 ∧ |y - 1 / Real.exp 1| < width / 2)
    (hret : ∀ p0 points, (∀ p ∈ points, p.2 = a * Real.exp (-b * p.1)) →
      ∃ f, fit p0 points none = .ok f) :
    ∃ m, exponentialRelaxation fit findRoot time value none width = .ok ⟨some m, some 0⟩ ∧
      |m - τ| ≤ 1 / 10000 := by
  have hb0 : 0 < b := lt_of_lt_of_le (by positivity) hb
  have hr : b * τ = 1 + Real.log a := by
    have := congrArg Real.log hτ
    rw [Real.log_mul ha.ne' (Real.exp_pos _).ne', Real.log_exp, one_div, Real.log_inv, Real.log_exp] at this
    linarith
  unfold exponentialRelaxation
  rw [if_neg (by simpa using hlen)]
  simp only
  set finite := (time.zip value).filterMap (fun p => p.2.map (fun x => (p.1, x))) with hfin
  set lo := 1 / Real.exp 1 - width / 2 with hlo
  set hi := 1 / Real.exp 1 + width / 2 with hhi
  have hbt : ∀ x : ℝ, between lo hi (some x) = true ↔ |x - 1 / Real.exp 1| < width / 2 := by
    intro x
    simp only [between, Bool.and_eq_true, decide_eq_true_eq, abs_lt, hlo, hhi]
    constructor
    · rintro ⟨h1, h2⟩; constructor <;> linarith
    · rintro ⟨h1, h2⟩; constructor <;> linarith
  have hmem : ∀ t x, (t, x) ∈ finite ↔ (t, some x) ∈ time.zip value := by
    intro t x
    rw [hfin, List.mem_filterMap]
    constructor
    · rintro ⟨⟨s, v⟩, hp, h⟩
      cases v with
      | none => cases h
      | some y =>
        simp only [Option.map_some, Option.some.injEq, Prod.mk.injEq] at h
        obtain ⟨rfl, rfl⟩ := h
        exact hp
    · intro h
      exact ⟨(t, some x), h, rfl⟩
  set inside := finite.filter (fun p => between lo hi (some p.2)) with hins
  have hin : ∀ p ∈ inside, p.2 = a * Real.exp (-b * p.1) := by
    rintro ⟨t, x⟩ hp
    rw [hins, List.mem_filter] at hp
    exact hdecay t x ((hmem t x).1 hp.1) ((hbt x).1 hp.2)
  have hcount : inside.length = (value.filter (fun v => v.any (fun x =>
      open Classical in decide (|x - 1 / Real.exp 1| < width / 2)))).length := by
    have key : ∀ (time : List ℝ) (value : List (Option ℝ)), time.length = value.length →
        (((time.zip value).filterMap (fun p => p.2.map (fun x => (p.1, x)))).filter
          (fun p => between lo hi (some p.2))).length =
        (value.filter (fun v => v.any (fun x =>
          open Classical in decide (|x - 1 / Real.exp 1| < width / 2)))).length := by
      intro time
      induction time with
      | nil => intro value h; cases value with
        | nil => rfl
        | cons => simp at h
      | cons t time ih =>
        intro value h
        cases value with
        | nil => simp at h
        | cons v value =>
          have := ih value (by simpa using h)
          cases v with
          | none => simpa using this
          | some x =>
            by_cases hx : |x - 1 / Real.exp 1| < width / 2
            · have hx' := (hbt x).2 hx
              simp only [List.zip_cons_cons, List.filterMap_cons, Option.map_some, List.filter_cons, hx',
                if_true, List.length_cons, Option.any_some, hx, decide_true, this]
            · have hx' : between lo hi (some x) = false := by
                rw [← Bool.not_eq_true]; exact fun hc => hx ((hbt x).1 hc)
              simp only [List.zip_cons_cons, List.filterMap_cons, Option.map_some, List.filter_cons, hx',
                Bool.false_eq_true, if_false, Option.any_some, hx, decide_false, this]
    exact key time value hlen
  rw [if_neg (by omega)]
  set zeroEst := ((finite[argmin (finite.map (fun p => |p.2 - 1 / Real.exp 1|))]?).map Prod.fst).getD 0 with hz
  -- the estimate lies in the region
  have hzin : ∃ x, (zeroEst, x) ∈ inside := by
    have hne : finite.map (fun p => |p.2 - 1 / Real.exp 1|) ≠ [] := by
      intro hc
      rw [List.map_eq_nil_iff] at hc
      have : inside.length = 0 := by rw [hins, hc]; rfl
      omega
    obtain ⟨y, hy, hyle⟩ := argmin_spec hne
    rw [List.getElem?_map, Option.map_eq_some_iff] at hy
    obtain ⟨⟨t, x⟩, hx, rfl⟩ := hy
    have : zeroEst = t := by rw [hz, hx]; rfl
    refine ⟨x, ?_⟩
    rw [this, hins, List.mem_filter]
    refine ⟨List.mem_of_getElem? hx, (hbt x).2 ?_⟩
    obtain ⟨t', x', _, _, hm', -, -, hx', -⟩ := htwo
    exact lt_of_le_of_lt (hyle _ (List.mem_map.2 ⟨(t', x'), (hmem _ _).2 hm', rfl⟩)) hx'
  obtain ⟨x0, hx0⟩ := hzin
  have hx0' : |x0 - 1 / Real.exp 1| < width / 2 := by
    rw [hins, List.mem_filter] at hx0
    exact (hbt x0).1 hx0.2
  have hx0e := hin _ hx0
  simp only at hx0e
  rw [hx0e, abs_lt] at hx0'
  obtain ⟨n1, n2⟩ := near_root (x := zeroEst) hb0 ha hr (by linarith) (by linarith)
  obtain ⟨p, hp, hpτ⟩ := newton_converges (tol := 1 / 10000) hb0 ha hr (by norm_num) 19 zeroEst (3 / 5)
    (by norm_num) (by rw [abs_le]; constructor <;> linarith) n1 n2
    (tiny.trans (mul_le_mul_of_nonneg_right hb (by norm_num)))
  have hroot : findRoot a b zeroEst = .ok (some p) := hp
  obtain ⟨f, hf⟩ := hret (open Classical in if zeroEst = 0 then (1, 0) else (1, 1 / zeroEst)) inside hin
  obtain ⟨hopt, hvar⟩ := hfit _ _ _ hf
  have hzero : decayError inside f.p0 f.p1 = 0 :=
    le_antisymm ((hopt a b).trans (decayError_exact hin).le) (decayError_nonneg _ _ _)
  obtain ⟨v0, v1⟩ := hvar hzero
  have hf0 := decayError_zero hzero
  obtain ⟨t, x, s, y, hm1, hm2, hts, hx, hy⟩ := htwo
  have i1 : (t, x) ∈ inside := by rw [hins, List.mem_filter]; exact ⟨(hmem _ _).2 hm1, (hbt x).2 hx⟩
  have i2 : (s, y) ∈ inside := by rw [hins, List.mem_filter]; exact ⟨(hmem _ _).2 hm2, (hbt y).2 hy⟩
  obtain ⟨g0, g1⟩ := decay_unique (a' := f.p0) (b' := f.p1) ha hts ((hf0 _ i1).trans (hin _ i1))
    ((hf0 _ i2).trans (hin _ i2))
  have hsq : npSqrt 0 = .ok 0 := by simp [npSqrt]
  have hppos : p > 0 := by
    rw [abs_le] at hpτ
    linarith [hpτ.1]
  refine ⟨p, ?_, hpτ⟩
  rw [hf]
  simp only [v0, v1, hsq, g0, g1, mul_zero, sub_zero, add_zero, hroot, nanSub, sub_self, if_pos hppos]

/-- There are least squares solvers for decays: one for points that lie on a decay, an exception
otherwise. -/
theorem exists_decayLeastSquares : ∃ fit, DecayLeastSquares fit ∧
    ∀ p0 points sigma a b, (∀ p ∈ points, p.2 = a * Real.exp (-b * p.1)) → ∃ f, fit p0 points sigma = .ok f := by
  classical
  refine ⟨fun _ points _ => if h : ∃ ab : ℝ × ℝ, ∀ p ∈ points, p.2 = ab.1 * Real.exp (-ab.2 * p.1) then
    .ok ⟨h.choose.1, h.choose.2, 0, 0⟩ else .error .runtimeError, ?_, ?_⟩
  · intro p0 points f hf
    simp only at hf
    split at hf
    · rename_i h
      obtain rfl := (Except.ok.inj hf).symm
      refine ⟨?_, fun _ => ⟨rfl, rfl⟩⟩
      intro a b
      simp only
      rw [decayError_exact h.choose_spec]
      exact decayError_nonneg _ _ _
    · cases hf
  · intro p0 points sigma a b h
    simp only
    rw [dif_pos ⟨(a, b), h⟩]
    exact ⟨_, rfl⟩

/-- The hypotheses of `C104_recovers`: `exp(-t)` at five times near 1, a NaN, and a first value of 5 that is
not on the decay. -/
example : ∃ (fit : ℝ × ℝ → List (ℝ × ℝ) → Option (List ℝ) → Except PyErr Fit) (m : ℝ),
    exponentialRelaxation fit findRoot [0, 1 / 2, 4 / 5, 9 / 10, 1, 11 / 10]
      [some 5, none, some (Real.exp (-(4 / 5))), some (Real.exp (-(9 / 10))), some (Real.exp (-1)),
        some (Real.exp (-(11 / 10)))] none = .ok ⟨some m, some 0⟩ ∧ |m - 1| ≤ 1 / 10000 := by
  obtain ⟨fit, h1, h2⟩ := exists_decayLeastSquares
  have he : 1 / Real.exp 1 = Real.exp (-1) := by rw [Real.exp_neg, one_div]
  have hlt := Real.exp_one_lt_d9
  have hgt := Real.exp_one_gt_d9
  have hnear : ∀ d : ℝ, |d| ≤ 1 / 5 → |Real.exp (-(1 + d)) - Real.exp (-1)| < (3 / 10) / 2 := by
    intro d hd
    have e : Real.exp (-(1 + d)) - Real.exp (-1) = Real.exp (-1) * (Real.exp (-d) - 1) := by
      rw [mul_sub, mul_one, ← Real.exp_add]; congr 2; ring
    have hd' : |-d| ≤ 1 := by rw [abs_neg]; linarith
    have h3 := Real.abs_exp_sub_one_sub_id_le hd'
    have h4 : Real.exp (-1) ≤ 2 / 5 := by
      rw [Real.exp_neg]
      rw [inv_le_comm₀ (Real.exp_pos _) (by norm_num)]
      linarith
    rw [e, abs_mul, abs_of_pos (Real.exp_pos _)]
    have h5 : |Real.exp (-d) - 1| ≤ 1 / 4 := by
      have hsq : (-d) ^ 2 ≤ 1 / 25 := by
        rw [neg_sq, ← sq_abs]
        nlinarith [abs_nonneg d]
      rw [abs_le] at h3 hd ⊢
      constructor <;> linarith [h3.1, h3.2, hd.1, hd.2]
    have := mul_le_mul h4 h5 (abs_nonneg _) (by norm_num)
    linarith
  have q1 := hnear (-(1 / 5)) (by rw [abs_le]; constructor <;> norm_num)
  have q2 := hnear (-(1 / 10)) (by rw [abs_le]; constructor <;> norm_num)
  have q3 := hnear 0 (by rw [abs_le]; constructor <;> norm_num)
  have q4 := hnear (1 / 10) (by rw [abs_le]; constructor <;> norm_num)
  norm_num only at q1 q2 q3 q4
  have h5 : ¬ |5 - Real.exp (-1)| < 3 / 20 := by
    have : Real.exp (-1) ≤ 1 := by rw [Real.exp_le_one_iff]; norm_num
    rw [abs_of_pos (by linarith)]
    linarith
  obtain ⟨m, hm⟩ := C104_recovers h1 (time := [0, 1 / 2, 4 / 5, 9 / 10, 1, 11 / 10])
    (value := [some 5, none, some (Real.exp (-(4 / 5))), some (Real.exp (-(9 / 10))), some (Real.exp (-1)),
        some (Real.exp (-(11 / 10)))]) rfl (le_refl (3 / 10)) (a := 1) (b := 1) (τ := 1) one_pos
    (pow_le_one₀ (by norm_num) (by norm_num)) (by rw [he]; simp) (by norm_num) (by
      intro t x hx hn
      rw [he] at hn
      simp only [List.zip_cons_cons, List.zip_nil_left, List.mem_cons, Prod.mk.injEq, Option.some.injEq,
        List.not_mem_nil, or_false, reduceCtorEq, and_false, false_or] at hx
      rcases hx with ⟨rfl, rfl⟩ | ⟨rfl, rfl⟩ | ⟨rfl, rfl⟩ | ⟨rfl, rfl⟩ | ⟨rfl, rfl⟩
      · norm_num at hn; exact absurd hn h5
      all_goals simp) (by
      rw [he]
      norm_num only
      simp only [List.filter_cons, Option.any_some, Option.any_none, q1, q2, q3, q4, h5]
      simp) (by
      rw [he]
      refine ⟨1, Real.exp (-1), 4 / 5, Real.exp (-(4 / 5)), by simp, by simp, by norm_num, ?_, ?_⟩
      · norm_num
      · norm_num only
        exact q1) (fun p0 points h => h2 p0 points none 1 1 h)
  exact ⟨fit, m, hm⟩

/-! ## The functions that are fitted -/

/-- **C49**: the line fitted to the msd, `curve_fit(_msd_function, …)`, is a line of smallest squared error. -/
theorem C49_fitted (curveFit : (ℝ → ℝ → ℝ → ℝ) → Option (ℝ × ℝ) → List (ℝ × ℝ) → Except PyErr Fit)
    (h : FitsBest curveFit) : LeastSquares (curveFit msdFunction none) := by
  intro points f hf m b
  exact (h msdFunction none points f hf).1 m b

/-- **C104**: the decay fitted, `curve_fit(_exponential_decay, …, p0=p0)`, has two parameters, as the guess `p0` has,
and `c` keeps its default 0; it is a decay of smallest squared error. -/
theorem C104_fitted (curveFit : (ℝ → ℝ → ℝ → ℝ) → Option (ℝ × ℝ) → List (ℝ × ℝ) → Except PyErr Fit)
    (h : FitsBest curveFit) :
    DecayLeastSquares (fun p0 points _ => curveFit (fun x a b => exponentialDecay x a b) (some p0) points) := by
  intro p0 points f hf
  obtain ⟨h1, h2⟩ := h _ _ _ _ hf
  have key : ∀ a b, squaredError (fun x a b => exponentialDecay x a b) points a b = decayError points a b := by
    intro a b
    unfold squaredError decayError exponentialDecay
    simp only [add_zero]
  simp only [key] at h1 h2
  exact ⟨h1, h2⟩

/-- There is such a solver that returns for every function that goes through the points. -/
theorem exists_fitsBest : ∃ curveFit, FitsBest curveFit ∧
    ∀ function p0 points a b, (∀ p ∈ points, function p.1 a b = p.2) → ∃ f, curveFit function p0 points = .ok f := by
  classical
  refine ⟨fun function _ points => if h : ∃ ab : ℝ × ℝ, ∀ p ∈ points, function p.1 ab.1 ab.2 = p.2 then
    .ok ⟨h.choose.1, h.choose.2, 0, 0⟩ else .error .runtimeError, ?_, ?_⟩
  · intro function p0 points f hf
    simp only at hf
    split at hf
    · rename_i h
      obtain rfl := (Except.ok.inj hf).symm
      refine ⟨?_, fun _ => ⟨rfl, rfl⟩⟩
      intro a b
      have hz : squaredError function points h.choose.1 h.choose.2 = 0 := by
        unfold squaredError
        have : points.map (fun p => (function p.1 h.choose.1 h.choose.2 - p.2) ^ 2) =
            points.map (fun _ => 0) := by
          apply List.map_congr_left
          intro p hp
          rw [h.choose_spec p hp, sub_self, zero_pow two_ne_zero]
        rw [this]
        simp
      simp only
      rw [hz]
      apply List.sum_nonneg
      intro x hx
      obtain ⟨p, -, rfl⟩ := List.mem_map.1 hx
      positivity
    · cases hf
  · intro function p0 points a b h
    simp only
    rw [dif_pos ⟨(a, b), h⟩]
    exact ⟨_, rfl⟩

/-- There is such a `curve_fit`, which meets the hypothesis of `C104_fitted`. -/
example : ∃ curveFit : (ℝ → ℝ → ℝ → ℝ) → Option (ℝ × ℝ) → List (ℝ × ℝ) → Except PyErr Fit,
    FitsBest curveFit ∧
    DecayLeastSquares (fun p0 points _ => curveFit (fun x a b => exponentialDecay x a b) (some p0) points) := by
  obtain ⟨curveFit, h1, -⟩ := exists_fitsBest
  exact ⟨curveFit, h1, C104_fitted curveFit h1⟩

example : ∃ curveFit : (ℝ → ℝ → ℝ → ℝ) → Option (ℝ × ℝ) → List (ℝ × ℝ) → Except PyErr Fit,
    LeastSquares (curveFit msdFunction none) ∧
    ∃ f, curveFit msdFunction none [(0, 1), (1, 3), (2, 5)] = .ok f := by
  obtain ⟨curveFit, h1, h2⟩ := exists_fitsBest
  refine ⟨curveFit, C49_fitted curveFit h1, h2 _ _ _ 2 1 ?_⟩
  intro p hp
  simp at hp
  rcases hp with rfl | rfl | rfl <;> norm_num [msdFunction]

end Verif.RelaxTime
