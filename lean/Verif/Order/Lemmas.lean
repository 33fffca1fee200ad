import Mathlib.Data.Finset.Card
import Mathlib.Data.List.Induction
import Verif.Order.Spec
/-!
# Lemmas about the order parameters
-/

namespace Verif.Order

open Quaternion Verif.Motion

theorem normSq_eq_dot (q : Quat) : normSq q = dot q q := by
  rw [normSq_def', dot]; ring

theorem dot_comm (p q : Quat) : dot p q = dot q p := by unfold dot; ring

theorem re_div (p q : Quat) (hq : dot q q = 1) : (p * q⁻¹).re = dot p q := by
  have : q⁻¹ = star q := by
    rw [Quaternion.inv_def, normSq_eq_dot, hq, inv_one, one_smul]
  rw [this]
  simp [dot]

theorem normSq_div (p q : Quat) (hp : dot p p = 1) (hq : dot q q = 1) : normSq (p * q⁻¹) = 1 := by
  rw [map_mul, map_inv₀, normSq_eq_dot, normSq_eq_dot, hp, hq]
  norm_num

theorem dot_lagrange (p q : Quat) : dot p q ^ 2 ≤ dot p p * dot q q := by
  unfold dot
  nlinarith [sq_nonneg (p.re * q.imI - p.imI * q.re), sq_nonneg (p.re * q.imJ - p.imJ * q.re),
    sq_nonneg (p.re * q.imK - p.imK * q.re), sq_nonneg (p.imI * q.imJ - p.imJ * q.imI),
    sq_nonneg (p.imI * q.imK - p.imK * q.imI), sq_nonneg (p.imJ * q.imK - p.imK * q.imJ)]

theorem dot_sq_le_one (p q : Quat) (hp : dot p p = 1) (hq : dot q q = 1) : dot p q ^ 2 ≤ 1 := by
  have := dot_lagrange p q
  rw [hp, hq] at this
  simpa using this

/-- The length of the logarithm of a unit quaternion. -/
theorem qnorm_log (u : Quat) (hu : normSq u = 1) :
    qnorm (rowanLog u) = if vnorm u = 0 then 0 else Real.arccos u.re := by
  have hq : qnorm u = 1 := by rw [qnorm, hu, Real.sqrt_one]
  have hn : normSq (rowanLog u) = (0 : ℝ) ^ 2 + (u.imI * (Real.arccos u.re / vnorm u)) ^ 2 +
        (u.imJ * (Real.arccos u.re / vnorm u)) ^ 2 +
        (u.imK * (Real.arccos u.re / vnorm u)) ^ 2 := by
    rw [normSq_def']
    have h0 : (rowanLog u).re = 0 := by
      change Real.log (qnorm u) = 0
      rw [hq, Real.log_one]
    have h1 : (rowanLog u).imI = u.imI * (Real.arccos u.re / vnorm u) := by
      change u.imI * (Real.arccos (u.re / qnorm u) / vnorm u) = _
      rw [hq, div_one]
    have h2 : (rowanLog u).imJ = u.imJ * (Real.arccos u.re / vnorm u) := by
      change u.imJ * (Real.arccos (u.re / qnorm u) / vnorm u) = _
      rw [hq, div_one]
    have h3 : (rowanLog u).imK = u.imK * (Real.arccos u.re / vnorm u) := by
      change u.imK * (Real.arccos (u.re / qnorm u) / vnorm u) = _
      rw [hq, div_one]
    rw [h0, h1, h2, h3]
  rw [qnorm, hn]
  split
  · next h => simp [h]
  · next h =>
    have hv : vnorm u ^ 2 = u.imI ^ 2 + u.imJ ^ 2 + u.imK ^ 2 :=
      Real.sq_sqrt (by positivity)
    have : (0 : ℝ) ^ 2 + (u.imI * (Real.arccos u.re / vnorm u)) ^ 2 +
        (u.imJ * (Real.arccos u.re / vnorm u)) ^ 2 + (u.imK * (Real.arccos u.re / vnorm u)) ^ 2 =
        Real.arccos u.re ^ 2 := by
      have h2 : vnorm u ^ 2 ≠ 0 := pow_ne_zero 2 h
      have : (0 : ℝ) ^ 2 + (u.imI * (Real.arccos u.re / vnorm u)) ^ 2 +
        (u.imJ * (Real.arccos u.re / vnorm u)) ^ 2 + (u.imK * (Real.arccos u.re / vnorm u)) ^ 2 =
        (u.imI ^ 2 + u.imJ ^ 2 + u.imK ^ 2) * (Real.arccos u.re ^ 2 / vnorm u ^ 2) := by
        field_simp
        ring
      rw [this, ← hv]
      field_simp
    rw [this, Real.sqrt_sq (Real.arccos_nonneg _)]

theorem cos_two_log (u : Quat) (hu : normSq u = 1) :
    Real.cos (2 * qnorm (rowanLog u)) = 2 * u.re ^ 2 - 1 := by
  have hsum : u.re ^ 2 + (u.imI ^ 2 + u.imJ ^ 2 + u.imK ^ 2) = 1 := by
    have := hu
    rw [normSq_def'] at this
    linarith
  have hv : vnorm u ^ 2 = u.imI ^ 2 + u.imJ ^ 2 + u.imK ^ 2 := Real.sq_sqrt (by positivity)
  rw [qnorm_log u hu]
  split
  · next h =>
    rw [h] at hv
    rw [mul_zero, Real.cos_zero]
    nlinarith
  · have h1 : u.re ^ 2 ≤ 1 := by nlinarith [sq_nonneg (vnorm u)]
    have h2 := abs_le.1 ((sq_le_one_iff_abs_le_one _).1 h1)
    rw [Real.cos_two_mul, Real.cos_arccos h2.1 h2.2]

theorem cos_intrinsic (p q : Quat) (hp : dot p p = 1) (hq : dot q q = 1) :
    Real.cos (2 * intrinsicDistance p q) = 2 * dot p q ^ 2 - 1 := by
  rw [intrinsicDistance, cos_two_log _ (normSq_div p q hp hq), re_div p q hq]

theorem intrinsic_self (q : Quat) (hq : dot q q = 1) : intrinsicDistance q q = 0 := by
  have h0 : q ≠ 0 := by
    rintro rfl
    simp [dot] at hq
  rw [intrinsicDistance, mul_inv_cancel₀ h0, qnorm_log 1 (by simp)]
  simp [vnorm]

theorem gather_ok {α : Type} (xs : List α) (d : α) : ∀ js : List Nat, (∀ j ∈ js, j < xs.length) →
    gather xs js = .ok (js.map (fun j => xs.getD j d))
  | [], _ => rfl
  | j :: js, h => by
    have hj := h j List.mem_cons_self
    rw [gather, gather_ok xs d js (fun k hk => h k (List.mem_cons_of_mem _ hk))]
    simp [hj]

theorem gatherRows_ok {α : Type} (xs : List α) (d : α) : ∀ rows : List (List Nat),
    (∀ row ∈ rows, ∀ j ∈ row, j < xs.length) →
    gatherRows xs rows = .ok (rows.map (fun row => row.map (fun j => xs.getD j d)))
  | [], _ => rfl
  | row :: rows, h => by
    rw [gatherRows, gather_ok xs d row (h row List.mem_cons_self),
      gatherRows_ok xs d rows (fun r hr => h r (List.mem_cons_of_mem _ hr))]
    rfl

theorem bcast_eq {α β γ : Type} (f : α → β → γ) (a : List α) (b : List β)
    (h : a.length = b.length) : bcast f a b = .ok (List.zipWith f a b) := by
  unfold bcast
  rw [if_pos h]

theorem replaceMissing_lt (n i : Nat) (hi : i < n) (row : List Nat) :
    ∀ j ∈ replaceMissing n row i, j < n := by
  intro j hj
  obtain ⟨k, _, rfl⟩ := List.mem_map.1 hj
  split
  · assumption
  · exact hi

/-- The angles of molecule `i`, with the quaternions looked up. -/
noncomputable def angleRow (o : List Quat) (i : Nat) (row : List Nat) : List ℝ :=
  row.map (fun j => 2 * intrinsicDistance (o.getD (if j < o.length then j else i) 0) (o.getD i 0))

theorem neighbourRelativeAngle_ok (nl : List (List Nat)) (o : List Quat)
    (hl : nl.length = o.length) :
    ∃ r, neighbourRelativeAngle nl o = .ok r ∧ r.length = o.length ∧
      ∀ (i : Nat) (row : List Nat), nl[i]? = some row → r[i]? = some (angleRow o i row) := by
  have h1 : bcast (replaceMissing o.length) nl (List.range o.length) =
      .ok (List.zipWith (replaceMissing o.length) nl (List.range o.length)) :=
    bcast_eq _ _ _ (by simpa using hl)
  have hmem : ∀ row ∈ List.zipWith (replaceMissing o.length) nl (List.range o.length),
      ∀ j ∈ row, j < o.length := by
    intro row hrow
    rw [List.mem_iff_getElem?] at hrow
    obtain ⟨i, hi⟩ := hrow
    rw [List.getElem?_zipWith_eq_some] at hi
    obtain ⟨r0, k, _, hk, rfl⟩ := hi
    have hk' : k < o.length := by
      have := List.mem_of_getElem? hk
      simpa using this
    exact replaceMissing_lt _ _ hk' _
  have h2 := gatherRows_ok o 0 _ hmem
  have h3 : neighbourRelativeAngle nl o = .ok (List.zipWith
      (fun row q => row.map (fun p => 2 * intrinsicDistance p q))
      ((List.zipWith (replaceMissing o.length) nl (List.range o.length)).map
        (fun row => row.map (fun j => o.getD j 0))) o) := by
    unfold neighbourRelativeAngle
    simp only [h1, h2]
    exact bcast_eq _ _ _ (by simp [hl])
  refine ⟨_, h3, by simp [hl], ?_⟩
  · intro i row hi
    have hio : i < o.length := by
      rw [← hl]
      exact (List.getElem?_eq_some_iff.1 hi).1
    rw [List.getElem?_zipWith_eq_some]
    refine ⟨(replaceMissing o.length row i).map (fun j => o.getD j 0), o.getD i 0, ?_, ?_, ?_⟩
    · rw [List.getElem?_map, Option.map_eq_some_iff]
      refine ⟨replaceMissing o.length row i, ?_, rfl⟩
      rw [List.getElem?_zipWith_eq_some]
      exact ⟨row, i, hi, by simp [hio], rfl⟩
    · simp [hio]
    · simp [replaceMissing, angleRow]

end Verif.Order

namespace Verif.Order

open Quaternion Verif.Motion

theorem getD_lt (o : List Quat) (i : Nat) (hi : i < o.length) : o.getD i 0 = o[i] := by
  rw [List.getD_eq_getElem?_getD, List.getElem?_eq_getElem hi]
  rfl

theorem AllUnit.getD {o : List Quat} (h : AllUnit o) (i : Nat) (hi : i < o.length) :
    dot (o.getD i 0) (o.getD i 0) = 1 := by
  rw [getD_lt o i hi]
  exact h _ (List.getElem_mem hi)

theorem cos_angle (o : List Quat) (ho : AllUnit o) (i : Nat) (hi : i < o.length) (j : Nat) :
    Real.cos (2 * intrinsicDistance (o.getD (if j < o.length then j else i) 0) (o.getD i 0)) ^ 2 =
      contribution o (o.getD i 0) j := by
  by_cases hj : j < o.length
  · rw [if_pos hj, cos_intrinsic _ _ (ho.getD j hj) (ho.getD i hi), contribution,
      List.getElem?_eq_getElem hj, getD_lt o j hj]
  · rw [if_neg hj, intrinsic_self _ (ho.getD i hi), contribution,
      List.getElem?_eq_none (by omega)]
    simp

/-- The whole result in closed form. -/
theorem orientationalOrderOf_eq (nl : List (List Nat)) (o : List Quat)
    (hl : nl.length = o.length) (ho : AllUnit o) (hne : ∀ row ∈ nl, row ≠ []) :
    orientationalOrderOf nl o = .ok (List.zipWith (orderSpec o) o nl) := by
  obtain ⟨r, hr, hlen, hrow⟩ := neighbourRelativeAngle_ok nl o hl
  rw [orientationalOrderOf, hr]
  simp only
  rw [rowMeans, if_neg]
  swap
  · rw [List.any_eq_true]
    rintro ⟨x, hx, hx0⟩
    obtain ⟨row, hrow', rfl⟩ := List.mem_map.1 hx
    obtain ⟨i, hi⟩ := List.mem_iff_getElem?.1 hrow'
    have hio : i < nl.length := by
      have := (List.getElem?_eq_some_iff.1 hi).1
      omega
    have h2 := hrow i _ (List.getElem?_eq_getElem hio)
    rw [hi] at h2
    cases h2
    have := hne _ (List.getElem_mem hio)
    simp [angleRow] at hx0
    exact this hx0
  congr 1
  rw [List.map_map]
  apply List.ext_getElem?
  intro i
  by_cases hi : i < o.length
  · have hnl : nl[i]? = some (nl.getD i []) := by simp [hl, hi]
    have hoi : o[i]? = some (o.getD i 0) := by simp [hi]
    have hz : (List.zipWith (orderSpec o) o nl)[i]? =
        some (orderSpec o (o.getD i 0) (nl.getD i [])) := by
      rw [List.getElem?_zipWith_eq_some]
      exact ⟨_, _, hoi, hnl, rfl⟩
    rw [hz, List.getElem?_map, hrow i _ hnl]
    simp only [Option.map_some, Option.some.injEq]
    generalize nl.getD i [] = row
    simp only [Function.comp_apply, orderSpec, angleRow, List.map_map, List.length_map]
    congr 2
    apply List.map_congr_left
    intro k _
    exact cos_angle o ho i hi k
  · rw [List.getElem?_eq_none (by simp; omega), List.getElem?_eq_none (by simp; omega)]

/-- A row without neighbours has no mean. -/
theorem orientationalOrderOf_empty (nl : List (List Nat)) (o : List Quat)
    (hl : nl.length = o.length) (he : [] ∈ nl) :
    orientationalOrderOf nl o = .error .floatingPointError := by
  obtain ⟨r, hr, hlen, hrow⟩ := neighbourRelativeAngle_ok nl o hl
  rw [orientationalOrderOf, hr]
  simp only
  rw [rowMeans, if_pos]
  obtain ⟨i, hi⟩ := List.mem_iff_getElem?.1 he
  have h2 := hrow i _ hi
  rw [List.any_eq_true]
  exact ⟨[], List.mem_map.2 ⟨_, List.mem_of_getElem? h2, rfl⟩, rfl⟩

theorem contribution_nonneg (o : List Quat) (q : Quat) (j : Nat) : 0 ≤ contribution o q j := by
  unfold contribution
  split
  · positivity
  · exact zero_le_one

theorem contribution_le_one (o : List Quat) (ho : AllUnit o) (q : Quat) (hq : dot q q = 1)
    (j : Nat) : contribution o q j ≤ 1 := by
  unfold contribution
  split
  · next p hp =>
    have h := dot_sq_le_one p q (ho p (List.mem_of_getElem? hp)) hq
    have h0 := sq_nonneg (dot p q)
    nlinarith
  · exact le_refl _

theorem contribution_eq_one (o : List Quat) (q : Quat) (j : Nat) (p : Quat) (hp : o[j]? = some p) :
    contribution o q j = 1 ↔ dot p q ^ 2 = 1 ∨ dot p q = 0 := by
  unfold contribution
  rw [hp]
  simp only
  constructor
  · intro h
    have : dot p q ^ 2 * (dot p q ^ 2 - 1) = 0 := by nlinarith
    rcases mul_eq_zero.1 this with h | h
    · right; exact pow_eq_zero_iff (two_ne_zero) |>.1 h
    · left; linarith
  · rintro (h | h)
    · rw [h]; norm_num
    · rw [h]; norm_num

theorem sum_le_length (l : List ℝ) (h : ∀ x ∈ l, x ≤ 1) : l.sum ≤ l.length := by
  induction l with
  | nil => simp
  | cons x l ih =>
    have h1 := h x List.mem_cons_self
    have h2 := ih (fun y hy => h y (List.mem_cons_of_mem _ hy))
    simp only [List.sum_cons, List.length_cons, Nat.cast_add, Nat.cast_one]
    linarith

theorem sum_eq_length (l : List ℝ) (h : ∀ x ∈ l, x ≤ 1) :
    l.sum = l.length ↔ ∀ x ∈ l, x = 1 := by
  induction l with
  | nil => simp
  | cons x l ih =>
    have h1 := h x List.mem_cons_self
    have h2 := sum_le_length l (fun y hy => h y (List.mem_cons_of_mem _ hy))
    simp only [List.sum_cons, List.length_cons, Nat.cast_add, Nat.cast_one, List.forall_mem_cons,
      ← ih (fun y hy => h y (List.mem_cons_of_mem _ hy))]
    constructor
    · intro h3; constructor <;> linarith
    · rintro ⟨h3, h4⟩; linarith

theorem dot_neg_left (p q : Quat) : dot (-p) q = -dot p q := by
  simp [dot]; ring

theorem dot_neg_right (p q : Quat) : dot p (-q) = -dot p q := by
  simp [dot]; ring

theorem dot_mul_left (g p q : Quat) : dot (g * p) (g * q) = dot g g * dot p q := by
  simp [dot]; ring

theorem dot_mul_right (g p q : Quat) : dot (p * g) (q * g) = dot g g * dot p q := by
  simp [dot]; ring

theorem dot_one_iff (p q : Quat) (hp : dot p p = 1) (hq : dot q q = 1) :
    dot p q ^ 2 = 1 ↔ p = q ∨ p = -q := by
  constructor
  · intro h
    have key : ∀ s : ℝ, s ^ 2 = 1 → dot p q = s → p.re = s * q.re ∧ p.imI = s * q.imI ∧
        p.imJ = s * q.imJ ∧ p.imK = s * q.imK := by
      intro s hs hd
      have h0 : (p.re - s * q.re) ^ 2 + (p.imI - s * q.imI) ^ 2 + (p.imJ - s * q.imJ) ^ 2 +
          (p.imK - s * q.imK) ^ 2 = 0 := by
        have : (p.re - s * q.re) ^ 2 + (p.imI - s * q.imI) ^ 2 + (p.imJ - s * q.imJ) ^ 2 +
          (p.imK - s * q.imK) ^ 2 = dot p p - 2 * s * dot p q + s ^ 2 * dot q q := by
          unfold dot; ring
        rw [this, hp, hq, hd, hs]
        nlinarith
      have a1 := sq_nonneg (p.re - s * q.re)
      have a2 := sq_nonneg (p.imI - s * q.imI)
      have a3 := sq_nonneg (p.imJ - s * q.imJ)
      have a4 := sq_nonneg (p.imK - s * q.imK)
      have e1 : (p.re - s * q.re) ^ 2 = 0 := by linarith
      have e2 : (p.imI - s * q.imI) ^ 2 = 0 := by linarith
      have e3 : (p.imJ - s * q.imJ) ^ 2 = 0 := by linarith
      have e4 : (p.imK - s * q.imK) ^ 2 = 0 := by linarith
      exact ⟨sub_eq_zero.1 (pow_eq_zero_iff two_ne_zero |>.1 e1),
        sub_eq_zero.1 (pow_eq_zero_iff two_ne_zero |>.1 e2),
        sub_eq_zero.1 (pow_eq_zero_iff two_ne_zero |>.1 e3),
        sub_eq_zero.1 (pow_eq_zero_iff two_ne_zero |>.1 e4)⟩
    have hfac : (dot p q - 1) * (dot p q + 1) = 0 := by nlinarith
    rcases mul_eq_zero.1 hfac with h | h
    · left
      obtain ⟨h1, h2, h3, h4⟩ := key 1 (by norm_num) (by linarith)
      rw [one_mul] at h1 h2 h3 h4
      exact Quaternion.ext _ _ h1 h2 h3 h4
    · right
      obtain ⟨h1, h2, h3, h4⟩ := key (-1) (by norm_num) (by linarith)
      rw [neg_one_mul] at h1 h2 h3 h4
      exact Quaternion.ext _ _ (by simpa using h1) (by simpa using h2) (by simpa using h3)
        (by simpa using h4)
  · rintro (rfl | rfl)
    · rw [hq]; norm_num
    · rw [dot_neg_left, hq]; norm_num

open Classical in
/-- The number of entries with a property is the number of their indices. -/
theorem length_filter_eq_card {α : Type} (l : List α) (p : α → Bool) :
    (l.filter p).length =
      ((Finset.range l.length).filter (fun i => ∃ a, l[i]? = some a ∧ p a = true)).card := by
  induction l using List.reverseRecOn with
  | nil => simp
  | append_singleton l a ih =>
    rw [List.filter_append, List.length_append, ih, List.length_append, List.length_singleton,
      Finset.range_add_one, Finset.filter_insert]
    have hsame : (Finset.range l.length).filter
        (fun i => ∃ b, (l ++ [a])[i]? = some b ∧ p b = true) =
        (Finset.range l.length).filter (fun i => ∃ b, l[i]? = some b ∧ p b = true) := by
      ext i
      simp only [Finset.mem_filter, Finset.mem_range, and_congr_right_iff]
      intro hi
      rw [List.getElem?_append_left hi]
    rw [hsame]
    by_cases ha : p a = true
    · rw [if_pos ⟨a, by simp, ha⟩, Finset.card_insert_of_notMem (by simp)]
      simp [ha]
    · rw [if_neg (by simpa using ha)]
      simp [ha]

end Verif.Order
