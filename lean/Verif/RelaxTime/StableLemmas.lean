import Mathlib.Tactic.Ring
import Mathlib.Tactic.Linarith
import Mathlib.Tactic.FieldSimp
import Verif.RelaxTime.StableSpec
import Verif.RelaxTime.UnitsLemmas
/-!
# Lemmas for C140
-/

namespace Verif.RelaxTime

theorem near_self {ε : ℝ} (h : 0 ≤ ε) (v : Option ℝ) : Near ε v v := by
  cases v with
  | none => trivial
  | some x => simpa [Near] using h

theorem near_lt {ε c x y : ℝ} (h : |x - y| ≤ ε) (hc : ε < |x - c|) : (x < c ↔ y < c) := by
  rw [abs_le] at h
  rcases lt_abs.1 hc with h' | h'
  · exact ⟨fun _ => by linarith [h.1, h.2], fun _ => by linarith [h.1, h.2]⟩
  · exact ⟨fun _ => by linarith [h.1, h.2], fun _ => by linarith [h.1, h.2]⟩

theorem near_gt {ε c x y : ℝ} (h : |x - y| ≤ ε) (hc : ε < |x - c|) : (c < x ↔ c < y) := by
  rw [abs_le] at h
  rcases lt_abs.1 hc with h' | h'
  · exact ⟨fun _ => by linarith [h.1, h.2], fun _ => by linarith [h.1, h.2]⟩
  · exact ⟨fun _ => by linarith [h.1, h.2], fun _ => by linarith [h.1, h.2]⟩

theorem close_map {α : Type} {ε : ℝ} {f : Option ℝ → α} {value value' : List (Option ℝ)}
    (h : Close ε value value') (hf : ∀ v ∈ value, ∀ v', Near ε v v' → f v = f v') :
    value.map f = value'.map f := by
  induction h with
  | nil => rfl
  | cons h1 _ ih =>
    simp only [List.map_cons, List.cons.injEq]
    exact ⟨hf _ (by simp) _ h1, ih (fun v hv => hf v (List.mem_cons_of_mem _ hv))⟩

theorem close_none {ε : ℝ} {value value' : List (Option ℝ)} (h : Close ε value value') :
    value.any Option.isNone = value'.any Option.isNone := by
  induction h with
  | nil => rfl
  | @cons a b _ _ h1 _ ih =>
    simp only [List.any_cons, ih]
    congr 1
    cases a <;> cases b <;> simp_all [Near]

theorem close_get {ε : ℝ} {value value' : List (Option ℝ)} (h : Close ε value value') (i : ℕ) :
    (value[i]? = none ∧ value'[i]? = none) ∨ ∃ v v', value[i]? = some v ∧ value'[i]? = some v' ∧ Near ε v v' := by
  induction h generalizing i with
  | nil => left; simp
  | cons h1 _ ih =>
    cases i with
    | zero => right; exact ⟨_, _, rfl, rfl, h1⟩
    | succ i => simpa using ih i

theorem close_length {ε : ℝ} {value value' : List (Option ℝ)} (h : Close ε value value') :
    value.length = value'.length := List.Forall₂.length_eq h

theorem close_symm {ε : ℝ} {value value' : List (Option ℝ)} (h : Close ε value value') : Close ε value' value := by
  refine List.Forall₂.flip (h.imp ?_)
  intro a b hab
  cases a <;> cases b <;> simp_all [Near, flip, abs_sub_comm]

theorem close_some {ε : ℝ} {value value' : List (Option ℝ)} (h : Close ε value value') {i : ℕ} {x : ℝ}
    (hx : value[i]? = some (some x)) : ∃ y, value'[i]? = some (some y) ∧ |x - y| ≤ ε := by
  rcases close_get h i with ⟨h1, _⟩ | ⟨v, v', h1, h2, h3⟩
  · rw [hx] at h1; cases h1
  · rw [hx] at h1
    cases h1
    cases v' with
    | none => exact h3.elim
    | some y => exact ⟨y, h2, h3⟩

/-! ## Thresholds -/

theorem threshold_close {signals decay : Bool} {ε thr : ℝ} {time : List ℝ} {value value' : List (Option ℝ)}
    (h : Close ε value value') (hc : ClearOf ε thr value) :
    thresholdRelaxation signals time value' thr decay = thresholdRelaxation signals time value thr decay := by
  unfold thresholdRelaxation
  rw [close_none h, close_map (f := fun v => if decay then nanLt v thr else nanGt v thr) h]
  intro v hv v' hn
  cases v with
  | none => cases v' with
    | none => rfl
    | some y => exact hn.elim
  | some x => cases v' with
    | none => exact hn.elim
    | some y =>
      have h1 := near_lt hn (hc x hv)
      have h2 := near_gt hn (hc x hv)
      simp only [nanLt, nanGt, h1, h2]

/-! ## The maximum -/

theorem loneMax_first {ε : ℝ} {value value' : List (Option ℝ)} (h : Close ε value value')
    {i : ℕ} {x : ℝ} (hi : value[i]? = some (some x))
    (hm : ∀ (j : ℕ) (y : ℝ), j ≠ i → value[j]? = some (some y) → y + 2 * ε < x) : ∃ x', FirstMax value' i x' := by
  obtain ⟨x', hx', hn⟩ := close_some h hi
  rw [abs_le] at hn
  have key : ∀ (j : ℕ) (y' : ℝ), j ≠ i → value'[j]? = some (some y') → y' < x' := by
    intro j y' hj hy'
    obtain ⟨y, hy, hyn⟩ := close_some (close_symm h) hy'
    rw [abs_le] at hyn
    have := hm j y hj hy
    linarith [hn.1, hn.2, hyn.1, hyn.2]
  refine ⟨x', hx', ?_, fun j hj y hy => key j y hj.ne hy⟩
  intro y hy
  obtain ⟨j, hj⟩ := List.mem_iff_getElem?.1 hy
  by_cases hji : j = i
  · subst hji
    rw [hx'] at hj
    cases hj
    exact le_rfl
  · exact (key j y hji hj).le

theorem close_self {ε : ℝ} (h : 0 ≤ ε) (value : List (Option ℝ)) : Close ε value value := by
  induction value with
  | nil => exact .nil
  | cons a l ih => exact .cons (near_self h a) ih

theorem maxTime_close {ε : ℝ} (hε : 0 ≤ ε) {time : List ℝ} {value value' : List (Option ℝ)}
    (h : Close ε value value') (hm : LoneMax ε value) :
    maxTimeRelaxation time value' = maxTimeRelaxation time value := by
  obtain ⟨i, x, hi, hmax⟩ := hm
  obtain ⟨x', h1⟩ := loneMax_first h hi hmax
  obtain ⟨x'', h2⟩ := loneMax_first (close_self hε value) hi hmax
  unfold maxTimeRelaxation
  rw [nanargmax_firstMax h1, nanargmax_firstMax h2, close_length h]

theorem max_near {ε : ℝ} {value value' : List (Option ℝ)} (h : Close ε value value') {i i' : ℕ} {x x' : ℝ}
    (hx : FirstMax value i x) (hx' : FirstMax value' i' x') : |x - x'| ≤ ε := by
  obtain ⟨y, hy, hn⟩ := close_some h hx.1
  obtain ⟨y', hy', hn'⟩ := close_some (close_symm h) hx'.1
  have h1 := hx'.2.1 y (List.mem_of_getElem? hy)
  have h2 := hx.2.1 y' (List.mem_of_getElem? hy')
  rw [abs_le] at *
  constructor <;> linarith [hn.1, hn.2, hn'.1, hn'.2]

theorem maxValue_mean {time : List ℝ} {value : List (Option ℝ)} {r : Result}
    (h : maxValueRelaxation time value = .ok r) :
    ((∀ y, some y ∉ value) ∧ r.mean = none) ∨ ∃ i x, FirstMax value i x ∧ r.mean = some x := by
  by_cases hv : ∃ y, some y ∈ value
  · right
    obtain ⟨i, x, hx⟩ := exists_firstMax hv
    refine ⟨i, x, hx, ?_⟩
    unfold maxValueRelaxation at h
    split at h
    · cases h
    · rw [nanargmax_firstMax hx] at h
      simp only [pyAt_nat hx.1, bind, Except.bind, pure, Except.pure] at h
      split_ifs at h <;> cases h1 : pyAt value ((i : ℤ) - 1) <;> cases h2 : pyAt value ((i : ℤ) + 1) <;>
        simp only [h1, h2, Except.ok.injEq, reduceCtorEq] at h <;> rw [← h]
  · left
    push Not at hv
    refine ⟨hv, ?_⟩
    unfold maxValueRelaxation at h
    split at h
    · cases h
    · rw [nanargmax_none hv] at h
      cases h
      rfl

/-! ## The diffusion constant -/

/-- Points at the same times with near values. -/
def PointsNear (ε : ℝ) (p q : ℝ × ℝ) : Prop := p.1 = q.1 ∧ |p.2 - q.2| ≤ ε

theorem region_close {ε : ℝ} {value value' : List (Option ℝ)} (h : Close ε value value')
    (h2 : ClearOf ε 2 value) (h50 : ClearOf ε 50 value) (time : List ℝ) :
    List.Forall₂ (PointsNear ε) (region 2 50 time value) (region 2 50 time value') := by
  induction h generalizing time with
  | nil => cases time <;> exact .nil
  | @cons a b l l' hab _ ih =>
    cases time with
    | nil => exact .nil
    | cons t time =>
      have ih := ih (fun x hx => h2 x (List.mem_cons_of_mem _ hx)) (fun x hx => h50 x (List.mem_cons_of_mem _ hx)) time
      unfold region at ih ⊢
      simp only [List.zip_cons_cons]
      cases a with
      | none => cases b with
        | none => simpa using ih
        | some y => exact hab.elim
      | some x => cases b with
        | none => exact hab.elim
        | some y =>
          have e1 := near_gt hab (h2 x (by simp))
          have e2 := near_lt hab (h50 x (by simp))
          have e : between 2 50 (some x) = between 2 50 (some y) := by
            simp only [between, e1, e2]
          cases hb : between 2 50 (some y) with
          | true =>
            rw [hb] at e
            simp only [List.filterMap_cons, e, hb, if_true]
            exact .cons ⟨rfl, hab⟩ ih
          | false =>
            rw [hb] at e
            simp only [List.filterMap_cons, e, hb]
            exact ih

theorem region_times (time : List ℝ) (value : List (Option ℝ)) :
    (region 2 50 time value).map Prod.fst = linearTimes time value := by
  classical
  unfold region linearTimes
  induction time.zip value with
  | nil => rfl
  | cons p l ih =>
    obtain ⟨t, v⟩ := p
    cases v with
    | none => simpa using ih
    | some x =>
      by_cases hx : 2 < x ∧ x < 50
      · have e : between 2 50 (some x) = true := by simp [between, hx]
        have e' : (∃ x_1, (some x : Option ℝ) = some x_1 ∧ 2 < x_1 ∧ x_1 < 50) := ⟨x, rfl, hx⟩
        rw [List.filterMap_cons, List.filter_cons]
        simp only [e, if_true, decide_eq_true e', List.map_cons, ih]
      · have e : between 2 50 (some x) = false := by
          simp only [between, Bool.and_eq_false_iff, decide_eq_false_iff_not]
          by_contra hc
          push Not at hc
          exact hx hc
        have e' : ¬ (∃ x_1, (some x : Option ℝ) = some x_1 ∧ 2 < x_1 ∧ x_1 < 50) := by
          rintro ⟨_, h, h'⟩
          cases h
          exact hx h'
        rw [List.filterMap_cons, List.filter_cons]
        simp only [e, decide_eq_false e', ih, Bool.false_eq_true, if_false]

/-- The error times another line, summed over the points. -/
def against (pts : List (ℝ × ℝ)) (m b a c : ℝ) : ℝ :=
  (pts.map (fun p => (m * p.1 + b - p.2) * (a * p.1 + c))).sum

/-- The sum of the squares of a line. -/
def square (pts : List (ℝ × ℝ)) (a c : ℝ) : ℝ := (pts.map (fun p => (a * p.1 + c) ^ 2)).sum

theorem sse_moved (pts : List (ℝ × ℝ)) (m b a c δ : ℝ) :
    sse pts (m + δ * a) (b + δ * c) = sse pts m b + 2 * δ * against pts m b a c + δ ^ 2 * square pts a c := by
  unfold sse against square
  induction pts with
  | nil => simp
  | cons p l ih => simp only [List.map_cons, List.sum_cons, ih]; ring

theorem square_nonneg (pts : List (ℝ × ℝ)) (a c : ℝ) : 0 ≤ square pts a c := by
  unfold square
  apply List.sum_nonneg
  intro x hx
  obtain ⟨p, _, rfl⟩ := List.mem_map.1 hx
  positivity

/-- Normal equations: the error of the best line is perpendicular to every line. -/
theorem against_least {pts : List (ℝ × ℝ)} {m b : ℝ} (h : ∀ x y, sse pts m b ≤ sse pts x y) (a c : ℝ) :
    against pts m b a c = 0 := by
  have hQ := square_nonneg pts a c
  have key (δ : ℝ) : 0 ≤ 2 * δ * against pts m b a c + δ ^ 2 * square pts a c := by
    have := h (m + δ * a) (b + δ * c)
    rw [sse_moved] at this
    linarith
  set A := against pts m b a c
  set Q := square pts a c
  have := key (-A / (Q + 1))
  have hq : 0 < Q + 1 := by linarith
  have e : 2 * (-A / (Q + 1)) * A + (-A / (Q + 1)) ^ 2 * Q = -(A ^ 2 * (Q + 2)) / (Q + 1) ^ 2 := by
    field_simp
    ring
  rw [e] at this
  have h3 : A ^ 2 * (Q + 2) ≤ 0 := by
    by_contra hc
    push Not at hc
    have : -(A ^ 2 * (Q + 2)) / (Q + 1) ^ 2 < 0 := div_neg_of_neg_of_pos (by linarith) (by positivity)
    linarith
  have h4 : A ^ 2 ≤ 0 := by nlinarith [sq_nonneg A]
  exact pow_eq_zero_iff (two_ne_zero) |>.1 (le_antisymm h4 (sq_nonneg A))

theorem square_diff {ε : ℝ} {pts pts' : List (ℝ × ℝ)} (h : List.Forall₂ (PointsNear ε) pts pts') (m b m' b' : ℝ) :
    square pts (m - m') (b - b') ≤
      2 * (against pts m b (m - m') (b - b') - against pts' m' b' (m - m') (b - b')) + pts.length * ε ^ 2 := by
  unfold square against
  induction h with
  | nil => simp
  | @cons p q l l' hpq _ ih =>
    obtain ⟨t, y⟩ := p
    obtain ⟨t', y'⟩ := q
    obtain ⟨h1, h2⟩ := hpq
    simp only at h1 h2
    subst h1
    simp only [List.map_cons, List.sum_cons, List.length_cons, Nat.cast_add, Nat.cast_one]
    have : (y - y') ^ 2 ≤ ε ^ 2 := by
      rw [← sq_abs (y - y')]
      exact pow_le_pow_left₀ (abs_nonneg _) h2 2
    nlinarith [sq_nonneg ((m - m') * t + (b - b') - (y - y'))]

theorem sum_sq_sub (pts : List (ℝ × ℝ)) (μ : ℝ) : ((pts.map Prod.fst).map (fun t => (t - μ) ^ 2)).sum =
    (pts.map (fun p => p.1 ^ 2)).sum - 2 * μ * (pts.map Prod.fst).sum + pts.length * μ ^ 2 := by
  induction pts with
  | nil => simp
  | cons p l ih => simp only [List.map_cons, List.sum_cons, ih, List.length_cons, Nat.cast_add, Nat.cast_one]; ring

theorem square_sums (pts : List (ℝ × ℝ)) (a c : ℝ) : square pts a c =
    a ^ 2 * (pts.map (fun p => p.1 ^ 2)).sum + 2 * a * c * (pts.map Prod.fst).sum + pts.length * c ^ 2 := by
  unfold square
  induction pts with
  | nil => simp
  | cons p l ih => simp only [List.map_cons, List.sum_cons, ih, List.length_cons, Nat.cast_add, Nat.cast_one]; ring

theorem square_spread (pts : List (ℝ × ℝ)) (a c : ℝ) : a ^ 2 * spread (pts.map Prod.fst) ≤ square pts a c := by
  unfold spread
  rw [sum_sq_sub, square_sums, List.length_map]
  rcases eq_or_ne pts [] with rfl | hne
  · simp
  have hn : (0 : ℝ) < pts.length := by
    have := List.length_pos_iff.2 hne
    exact_mod_cast this
  set S := (pts.map Prod.fst).sum
  set n : ℝ := (pts.length : ℝ)
  have : 0 ≤ n * (c + a * S / n) ^ 2 := by positivity
  have e3 : n * (c + a * S / n) ^ 2 = n * c ^ 2 + 2 * a * c * S + a ^ 2 * S ^ 2 / n := by
    field_simp
    ring
  have e4 : a ^ 2 * ((pts.map (fun p => p.1 ^ 2)).sum - 2 * (S / n) * S + n * (S / n) ^ 2) =
      a ^ 2 * (pts.map (fun p => p.1 ^ 2)).sum - a ^ 2 * S ^ 2 / n := by
    field_simp
    ring
  rw [e4]
  linarith

theorem slope_close {fit : List (ℝ × ℝ) → Except PyErr Fit} (hfit : LeastSquares fit) {ε : ℝ}
    {pts pts' : List (ℝ × ℝ)} (h : List.Forall₂ (PointsNear ε) pts pts') {f f' : Fit}
    (hf : fit pts = .ok f) (hf' : fit pts' = .ok f') :
    (f.p0 - f'.p0) ^ 2 * spread (pts.map Prod.fst) ≤ pts.length * ε ^ 2 := by
  have h1 := square_diff h f.p0 f.p1 f'.p0 f'.p1
  rw [against_least (hfit pts f hf), against_least (hfit pts' f' hf')] at h1
  have h2 := square_spread pts (f.p0 - f'.p0) (f.p1 - f'.p1)
  linarith

end Verif.RelaxTime
