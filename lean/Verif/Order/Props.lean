import Verif.Order.Lemmas
import Verif.Order.FreudLemmas
/-!
# Properties of the order parameters: C62, C63, C64, C83, C84, C85
-/

namespace Verif.Order

open Quaternion Verif.Motion

/-- Three molecules, rotated by 0, by a quarter turn and by a half turn. -/
noncomputable def sampleO : List Quat := [zRot 0, zRot (Real.pi / 2), zRot Real.pi]

theorem zRot_unit (a : ℝ) : dot (zRot a) (zRot a) = 1 := by
  have := Real.sin_sq_add_cos_sq (a / 2)
  simp only [dot, zRot]
  nlinarith

theorem sampleO_unit : AllUnit sampleO := by
  intro q hq
  simp only [sampleO, List.mem_cons, List.not_mem_nil, or_false] at hq
  rcases hq with rfl | rfl | rfl <;> exact zRot_unit _

/-! ### C62: orientational order -/

/-- **C62.** For unit quaternions, and as many neighbour lists as molecules, the order of molecule
`i` is the mean over its neighbours of `(2 w² - 1)²`, `w` the inner product of the quaternions
(missing neighbours, those that are not molecules, count 1, see C63).  The lists are not empty, see
`C62_empty`. -/
theorem C62_formula (nl : List (List Nat)) (o : List Quat) (hl : nl.length = o.length)
    (ho : AllUnit o) (hne : ∀ row ∈ nl, row ≠ []) :
    ∃ r, orientationalOrderOf nl o = .ok r ∧ r.length = o.length ∧
      ∀ (i : Nat) (row : List Nat) (q : Quat), nl[i]? = some row → o[i]? = some q →
        r[i]? = some (orderSpec o q row) := by
  refine ⟨_, orientationalOrderOf_eq nl o hl ho hne, by simp [hl], ?_⟩
  intro i row q hi hq
  rw [List.getElem?_zipWith_eq_some]
  exact ⟨q, row, hq, hi, rfl⟩

example : [[1, 2], [0, 2], [0, 1]].length = sampleO.length ∧ AllUnit sampleO ∧
    ∀ row ∈ [[1, 2], [0, 2], [0, 1]], row ≠ [] :=
  ⟨rfl, sampleO_unit, by simp⟩

/-- **C62.** The only error, with as many neighbour lists as molecules, is for a molecule without any
column of neighbours (`max_neighbours=0`): its mean would be 0/0, and importing the package lets
that raise FloatingPointError. -/
theorem C62_empty (nl : List (List Nat)) (o : List Quat) (hl : nl.length = o.length)
    (ho : AllUnit o) (e : PyErr) :
    orientationalOrderOf nl o = .error e ↔ [] ∈ nl ∧ e = .floatingPointError := by
  by_cases he : [] ∈ nl
  · rw [orientationalOrderOf_empty nl o hl he]
    simp [he, eq_comm]
  · rw [orientationalOrderOf_eq nl o hl ho (fun row hrow h => he (h ▸ hrow))]
    simp [he]

example : orientationalOrderOf [[], [], []] sampleO = .error .floatingPointError :=
  (C62_empty _ _ rfl sampleO_unit _).2 ⟨by simp, rfl⟩

/-- **C62.** Every order is between 0 and 1. -/
theorem C62_range (nl : List (List Nat)) (o : List Quat) (hl : nl.length = o.length)
    (ho : AllUnit o) (r : List ℝ) (hr : orientationalOrderOf nl o = .ok r) (x : ℝ)
    (hx : x ∈ r) : 0 ≤ x ∧ x ≤ 1 := by
  have hne : ∀ row ∈ nl, row ≠ [] := by
    rintro row hrow rfl
    rw [orientationalOrderOf_empty nl o hl hrow] at hr
    cases hr
  rw [orientationalOrderOf_eq nl o hl ho hne] at hr
  cases hr
  rw [List.mem_iff_getElem?] at hx
  obtain ⟨i, hi⟩ := hx
  rw [List.getElem?_zipWith_eq_some] at hi
  obtain ⟨q, row, hq, hrow, rfl⟩ := hi
  unfold orderSpec
  have hpos : 0 < (row.length : ℝ) := by
    have := List.length_pos_iff.2 (hne row (List.mem_of_getElem? hrow))
    exact_mod_cast this
  constructor
  · apply div_nonneg _ hpos.le
    apply List.sum_nonneg
    intro y hy
    obtain ⟨j, _, rfl⟩ := List.mem_map.1 hy
    exact contribution_nonneg o q j
  · rw [div_le_one hpos]
    have := sum_le_length (row.map (contribution o q)) (fun y hy => by
      obtain ⟨j, _, rfl⟩ := List.mem_map.1 hy
      exact contribution_le_one o ho q (ho q (List.mem_of_getElem? hq)) j)
    rwa [List.length_map] at this

example : ∃ r x, orientationalOrderOf [[1, 2], [0, 2], [0, 1]] sampleO = .ok r ∧ x ∈ r := by
  obtain ⟨r, hr, hl, -⟩ := C62_formula [[1, 2], [0, 2], [0, 1]] sampleO rfl sampleO_unit (by simp)
  exact ⟨r, r[0]'(by rw [hl]; simp [sampleO]), hr, List.getElem_mem _⟩

/-- If the contributions agree, so do the orders. -/
theorem order_congr (nl : List (List Nat)) (o o' : List Quat) (hl : nl.length = o.length)
    (hlen : o'.length = o.length) (ho : AllUnit o) (ho' : AllUnit o')
    (h : ∀ (i j : Nat) (q q' : Quat), o[i]? = some q → o'[i]? = some q' →
      contribution o' q' j = contribution o q j) :
    orientationalOrderOf nl o' = orientationalOrderOf nl o := by
  by_cases he : [] ∈ nl
  · rw [orientationalOrderOf_empty nl o hl he, orientationalOrderOf_empty nl o' (by omega) he]
  have hne : ∀ row ∈ nl, row ≠ [] := fun row hrow h => he (h ▸ hrow)
  rw [orientationalOrderOf_eq nl o hl ho hne, orientationalOrderOf_eq nl o' (by omega) ho' hne]
  congr 1
  apply List.ext_getElem?
  intro i
  by_cases hi : i < o.length
  · have hz : ∀ o'' : List Quat, (hi' : i < o''.length) →
        (List.zipWith (orderSpec o'') o'' nl)[i]? = some (orderSpec o'' o''[i] (nl.getD i [])) := by
      intro o'' hi'
      rw [List.getElem?_zipWith_eq_some]
      exact ⟨_, _, List.getElem?_eq_getElem hi', by simp [hl, hi], rfl⟩
    rw [hz o hi, hz o' (by omega)]
    congr 1
    unfold orderSpec
    congr 2
    apply List.map_congr_left
    intro j _
    exact h i j _ _ (List.getElem?_eq_getElem hi) (List.getElem?_eq_getElem (by omega))
  · rw [List.getElem?_eq_none (by simp; omega), List.getElem?_eq_none (by simp; omega)]

/-- **C62.** `q` and `-q` are the same rotation; replacing any of the quaternions by its negative
changes nothing. -/
theorem C62_sign (nl : List (List Nat)) (o o' : List Quat) (hl : nl.length = o.length)
    (ho : AllUnit o) (hlen : o'.length = o.length)
    (hs : ∀ (i : Nat) (q q' : Quat), o[i]? = some q → o'[i]? = some q' → q' = q ∨ q' = -q) :
    orientationalOrderOf nl o' = orientationalOrderOf nl o := by
  have ho' : AllUnit o' := by
    intro q' hq'
    obtain ⟨i, hi⟩ := List.mem_iff_getElem?.1 hq'
    have hio : i < o.length := hlen ▸ (List.getElem?_eq_some_iff.1 hi).1
    have hu := ho _ (List.getElem_mem hio)
    rcases hs i _ q' (List.getElem?_eq_getElem hio) hi with rfl | rfl
    · exact hu
    · rw [dot_neg_left, dot_neg_right, neg_neg]; exact hu
  refine order_congr nl o o' hl hlen ho ho' ?_
  intro i j q q' hq hq'
  unfold contribution
  by_cases hj : j < o.length
  · rw [List.getElem?_eq_getElem hj, List.getElem?_eq_getElem (by omega : j < o'.length)]
    simp only
    rcases hs i q q' hq hq' with rfl | rfl <;>
    rcases hs j _ _ (List.getElem?_eq_getElem hj)
      (List.getElem?_eq_getElem (by omega : j < o'.length)) with h | h <;>
    rw [h] <;> simp only [dot_neg_left, dot_neg_right] <;> ring
  · rw [List.getElem?_eq_none (by omega), List.getElem?_eq_none (by omega)]

example : ∀ (i : Nat) (q q' : Quat), sampleO[i]? = some q → (sampleO.map (fun q => -q))[i]? = some q' →
    q' = q ∨ q' = -q := by
  intro i q q' h h'
  rw [List.getElem?_map, h] at h'
  right
  simpa using h'.symm

/-- **C62.** Rotating all molecules together, on either side, changes nothing. -/
theorem C62_rotation (nl : List (List Nat)) (o : List Quat) (hl : nl.length = o.length)
    (ho : AllUnit o) (g : Quat) (hg : dot g g = 1) :
    orientationalOrderOf nl (o.map (fun q => g * q)) = orientationalOrderOf nl o ∧
    orientationalOrderOf nl (o.map (fun q => q * g)) = orientationalOrderOf nl o := by
  have key : ∀ f : Quat → Quat, (∀ p q, dot (f p) (f q) = dot p q) →
      orientationalOrderOf nl (o.map f) = orientationalOrderOf nl o := by
    intro f hf
    refine order_congr nl o _ hl (by simp) ho ?_ ?_
    · intro q hq
      obtain ⟨p, hp, rfl⟩ := List.mem_map.1 hq
      rw [hf]
      exact ho p hp
    · intro i j q q' hq hq'
      rw [List.getElem?_map, hq] at hq'
      cases hq'
      unfold contribution
      rw [List.getElem?_map]
      cases o[j]? with
      | none => rfl
      | some p => simp only [Option.map_some, hf]
  exact ⟨key _ (fun p q => by rw [dot_mul_left, hg, one_mul]),
    key _ (fun p q => by rw [dot_mul_right, hg, one_mul])⟩

example : dot (zRot 1) (zRot 1) = 1 := zRot_unit 1

/-- **C62.** The order of a molecule is 1 exactly when every neighbour has the same orientation or
is rotated by a half turn (about any axis): `w = ±1` or `w = 0`. -/
theorem C62_one_iff (o : List Quat) (ho : AllUnit o) (q : Quat) (hq : dot q q = 1)
    (row : List Nat) (hrow : row ≠ []) :
    orderSpec o q row = 1 ↔
      ∀ j ∈ row, ∀ p, o[j]? = some p → p = q ∨ p = -q ∨ dot p q = 0 := by
  have hpos : (row.length : ℝ) ≠ 0 := by
    have := List.length_pos_iff.2 hrow
    exact_mod_cast this.ne'
  rw [orderSpec, div_eq_one_iff_eq hpos]
  have := sum_eq_length (row.map (contribution o q)) (fun y hy => by
      obtain ⟨j, _, rfl⟩ := List.mem_map.1 hy
      exact contribution_le_one o ho q hq j)
  rw [List.length_map] at this
  rw [this]
  constructor
  · intro h j hj p hp
    have h1 := h _ (List.mem_map_of_mem hj)
    rw [contribution_eq_one o q j p hp, dot_one_iff p q (ho p (List.mem_of_getElem? hp)) hq,
      or_assoc] at h1
    exact h1
  · intro h y hy
    obtain ⟨j, hj, rfl⟩ := List.mem_map.1 hy
    cases hp : o[j]? with
    | none => simp [contribution, hp]
    | some p =>
      rw [contribution_eq_one o q j p hp, dot_one_iff p q (ho p (List.mem_of_getElem? hp)) hq,
        or_assoc]
      exact h j hj p hp

/-- **C62.** For molecules in the plane, at angles `a`, the contribution of a neighbour is the
`cos²(θᵢ - θ)` of the documentation. -/
theorem C62_planar (a : List ℝ) (t : ℝ) (j : Nat) (s : ℝ) (hj : a[j]? = some s) :
    contribution (a.map zRot) (zRot t) j = Real.cos (s - t) ^ 2 := by
  unfold contribution
  rw [List.getElem?_map, hj]
  simp only [Option.map_some]
  have h : dot (zRot s) (zRot t) = Real.cos (s / 2 - t / 2) := by
    rw [Real.cos_sub]
    simp [dot, zRot]
  rw [h, ← Real.cos_two_mul]
  congr 2
  ring

example : ([0, 1] : List ℝ)[1]? = some 1 := rfl

/-! ### C63: missing neighbours -/

/-- **C63.** With as many neighbour lists as molecules, whatever the indices, no error is raised;
the angle at a missing neighbour is 0, and at any other is that to the neighbour. -/
theorem C63_missing (nl : List (List Nat)) (o : List Quat) (hl : nl.length = o.length)
    (ho : AllUnit o) :
    ∃ r, neighbourRelativeAngle nl o = .ok r ∧ r.length = o.length ∧
      ∀ (i k j : Nat) (row : List Nat) (q : Quat), nl[i]? = some row → row[k]? = some j →
        o[i]? = some q →
        ∃ angles, r[i]? = some angles ∧
          (o.length ≤ j → angles[k]? = some 0) ∧
          (∀ p, o[j]? = some p → angles[k]? = some (2 * intrinsicDistance p q)) := by
  obtain ⟨r, hr, hlen, hrow⟩ := neighbourRelativeAngle_ok nl o hl
  refine ⟨r, hr, hlen, ?_⟩
  intro i k j row q hi hk hq
  have hio : i < o.length := (List.getElem?_eq_some_iff.1 hq).1
  have hq' : o.getD i 0 = q := by simp [List.getD_eq_getElem?_getD, hq]
  refine ⟨_, hrow i row hi, ?_, ?_⟩
  · intro hj
    rw [angleRow, List.getElem?_map, hk, Option.map_some, if_neg (by omega), hq',
      intrinsic_self q (ho q (List.mem_of_getElem? hq)), mul_zero]
  · intro p hp
    have hj : j < o.length := (List.getElem?_eq_some_iff.1 hp).1
    have hp' : o.getD j 0 = p := by simp [List.getD_eq_getElem?_getD, hp]
    rw [angleRow, List.getElem?_map, hk, Option.map_some, if_pos hj, hq', hp']

example : [[1, missing], [0, missing], [missing, missing]].length = sampleO.length := rfl

/-- **C63.** Each missing neighbour counts as fully ordered. -/
theorem C63_missing_one (o : List Quat) (q : Quat) (j : Nat) (hj : o.length ≤ j) :
    contribution o q j = 1 := by
  rw [contribution, List.getElem?_eq_none hj]

example : sampleO.length ≤ missing := by simp [sampleO, missing]

/-- The order of a molecule for which freud has found `found`, of at most `k` neighbours. -/
noncomputable def paddedOrder (o : List Quat) (q : Quat) (found : List (Nat × ℝ)) (k : Nat) : ℝ :=
  ((found.map (fun x => contribution o q x.1)).sum + (k - found.length : Nat)) / k

/-- **C63.** End to end, for a correct neighbour search: `orientational_order` never fails for a box
of at least three numbers and at most 2³²-1 unit orientations, one per position, and is the sum
over the neighbours found plus 1 for each one short of `k`, divided by `k`. -/
theorem C63_orientational_order (freud : Freud) (hf : freud.Correct) (box : List ℝ)
    (hbox : 3 ≤ box.length) (pos : List V3) (o : List Quat) (hlen : pos.length = o.length)
    (hsmall : o.length ≤ missing) (ho : AllUnit o) (r : ℝ) (k : Nat) (hk : 0 < k) :
    ∃ b res, createFreudBox box true = .ok b ∧ orientationalOrder freud box pos o r k = .ok res ∧
      res.length = o.length ∧
      ∀ (i : Nat) (q : Quat), o[i]? = some q → ∃ found, IsNearest b pos r k i found ∧
        res[i]? = some (paddedOrder o q found k) := by
  obtain ⟨b, hb⟩ : ∃ b, createFreudBox box true = .ok b := by
    match box, hbox with
    | x :: y :: z :: rest, _ => exact ⟨_, rfl⟩
  obtain ⟨hrows, hnear⟩ := hf b pos r k
  have hnl : ((freud b pos r k).index k).length = o.length := by
    rw [Table.index, List.length_map, hrows, hlen]
  obtain ⟨res, hres, hrl, hform⟩ := C62_formula _ o hnl ho (by
    rintro row hrow rfl
    obtain ⟨found, _, h⟩ := List.mem_map.1 hrow
    have := congrArg List.length h
    rw [List.length_append, List.length_map, List.length_replicate, List.length_nil] at this
    omega)
  refine ⟨b, res, hb, ?_, hrl, ?_⟩
  · rw [orientationalOrder, computeNeighbours, setupNeighbours, hb]
    exact hres
  · intro i q hq
    have hi : i < o.length := (List.getElem?_eq_some_iff.1 hq).1
    obtain ⟨found, hfound⟩ : ∃ found, (freud b pos r k).rows[i]? = some found :=
      ⟨_, List.getElem?_eq_getElem (by omega)⟩
    have hn := hnear i found hfound
    refine ⟨found, hn, ?_⟩
    rw [hform i _ q (by rw [Table.index, List.getElem?_map, hfound]; rfl) hq, orderSpec]
    have hlenk := hn.len
    congr 1
    rw [paddedOrder]
    congr 1
    · rw [List.map_append, List.sum_append, List.map_map, List.map_replicate,
        C63_missing_one o q missing hsmall, List.sum_replicate, nsmul_eq_mul, mul_one]
      rfl
    · rw [List.length_append, List.length_map, List.length_replicate]
      congr 1
      omega

example : refFreud.Correct ∧ 3 ≤ ([9, 9, 9] : List ℝ).length ∧ AllUnit sampleO :=
  ⟨refFreud_correct, by simp, sampleO_unit⟩

/-- **C63.** End to end for `relative_orientations`: entry `j` of molecule `i` is the angle to the
`j`-th neighbour found, and 0 where there is none. -/
theorem C63_relative_orientations (freud : Freud) (hf : freud.Correct) (box : List ℝ)
    (hbox : 3 ≤ box.length) (pos : List V3) (o : List Quat) (hlen : pos.length = o.length)
    (hsmall : o.length ≤ missing) (ho : AllUnit o) (r : ℝ) (k : Nat) :
    ∃ b res, createFreudBox box true = .ok b ∧ relativeOrientations freud box pos o r k = .ok res ∧
      res.length = o.length ∧
      ∀ (i : Nat) (q : Quat), o[i]? = some q → ∃ found angles,
        IsNearest b pos r k i found ∧ res[i]? = some angles ∧
        (∀ (j : Nat) (x : Nat × ℝ) (p : Quat), found[j]? = some x → o[x.1]? = some p →
          angles[j]? = some (2 * intrinsicDistance p q)) ∧
        (∀ j : Nat, found.length ≤ j → j < k → angles[j]? = some 0) := by
  obtain ⟨b, hb⟩ : ∃ b, createFreudBox box true = .ok b := by
    match box, hbox with
    | x :: y :: z :: rest, _ => exact ⟨_, rfl⟩
  obtain ⟨hrows, hnear⟩ := hf b pos r k
  have hnl : ((freud b pos r k).index k).length = o.length := by
    rw [Table.index, List.length_map, hrows, hlen]
  obtain ⟨res, hres, hrl, hrow⟩ := neighbourRelativeAngle_ok _ o hnl
  refine ⟨b, res, hb, ?_, hrl, ?_⟩
  · rw [relativeOrientations, computeNeighbours, setupNeighbours, hb]
    exact hres
  · intro i q hq
    have hi : i < o.length := (List.getElem?_eq_some_iff.1 hq).1
    obtain ⟨found, hfound⟩ : ∃ found, (freud b pos r k).rows[i]? = some found :=
      ⟨_, List.getElem?_eq_getElem (by omega)⟩
    have hq' : o.getD i 0 = q := by simp [List.getD_eq_getElem?_getD, hq]
    refine ⟨found, _, hnear i found hfound,
      hrow i _ (by rw [Table.index, List.getElem?_map, hfound]; rfl), ?_, ?_⟩
    · intro j x p hx hp
      have hj : j < found.length := (List.getElem?_eq_some_iff.1 hx).1
      have hxo : x.1 < o.length := (List.getElem?_eq_some_iff.1 hp).1
      have hp' : o.getD x.1 0 = p := by simp [List.getD_eq_getElem?_getD, hp]
      rw [angleRow, List.getElem?_map, List.getElem?_append_left (by simpa using hj),
        List.getElem?_map, hx]
      simp only [Option.map_some]
      rw [if_pos hxo, hq', hp']
    · intro j h1 h2
      rw [angleRow, List.getElem?_map, List.getElem?_append_right (by simpa using h1),
        List.getElem?_replicate_of_lt (by rw [List.length_map]; omega)]
      simp only [Option.map_some]
      rw [if_neg (by omega), hq', intrinsic_self q (ho q (List.mem_of_getElem? hq)), mul_zero]

/-- **C62.** `create_orient_ordering(threshold)` marks exactly the molecules whose order (within 3.5,
eight neighbours) is above the threshold. -/
theorem C62_ordering (freud : Freud) (t : ℝ) (box : List ℝ) (pos : List V3) (o : List Quat)
    (res : List Bool) (h : orientOrdering freud t box pos o = .ok res) :
    ∃ r, orientationalOrder freud box pos o 3.5 8 = .ok r ∧ res.length = r.length ∧
      ∀ i : Nat, res[i]? = some true ↔ ∃ x, r[i]? = some x ∧ t < x := by
  unfold orientOrdering at h
  split at h
  · cases h
  next r hr =>
  cases h
  refine ⟨r, hr, by simp, ?_⟩
  intro i
  rw [List.getElem?_map]
  rcases r[i]? with _ | x <;> simp [above]

/-- Three molecules, with the threshold 0.85. -/
example : ∃ res r, orientOrdering refFreud (17 / 20) [9, 9, 9] [(0, 0, 0), (1, 0, 0), (0, 1, 0)] sampleO = .ok res ∧
    orientationalOrder refFreud [9, 9, 9] [(0, 0, 0), (1, 0, 0), (0, 1, 0)] sampleO 3.5 8 = .ok r ∧
    res.length = r.length := by
  obtain ⟨b, r, -, hr, -⟩ := C63_orientational_order refFreud refFreud_correct [9, 9, 9] (by simp)
    [(0, 0, 0), (1, 0, 0), (0, 1, 0)] sampleO rfl (by simp [sampleO, missing]) sampleO_unit 3.5 8 (by norm_num)
  have h : orientOrdering refFreud (17 / 20) [9, 9, 9] [(0, 0, 0), (1, 0, 0), (0, 1, 0)] sampleO =
      .ok (r.map (above (17 / 20))) := by
    rw [orientOrdering, hr]
  obtain ⟨r', hr', hl, -⟩ := C62_ordering _ _ _ _ _ _ h
  exact ⟨_, r', h, hr', hl⟩

/-- **C63.** So a molecule without any neighbour has order 1, and is reported as ordered for every
threshold below 1. -/
theorem C63_isolated (o : List Quat) (q : Quat) (k : Nat) (hk : 0 < k) :
    paddedOrder o q [] k = 1 ∧ ∀ t < 1, above t (paddedOrder o q [] k) = true := by
  have h : paddedOrder o q [] k = 1 := by
    have : (k : ℝ) ≠ 0 := by exact_mod_cast hk.ne'
    simp [paddedOrder, this]
  refine ⟨h, fun t ht => ?_⟩
  rw [h]
  simpa [above] using ht

/-- Six neighbours asked for. -/
example : above (9 / 10) (paddedOrder sampleO 1 [] 6) = true :=
  (C63_isolated sampleO 1 6 (by norm_num)).2 _ (by norm_num)

/-! ### C64: relative distances -/

/-- Two particles in a box of side 10, at the same place. -/
def samplePos : List V3 := [(0, 0, 0), (0, 0, 0)]

/-- **C64 (refuted).** Missing neighbours are documented to be -1; the value is 0, the same as for a
neighbour at distance 0. -/
theorem C64_missing_refuted :
    ¬ (∀ (freud : Freud) (box : List ℝ) (pos : List V3) (r : ℝ) (k : Nat) (res : List (List ℝ)),
      freud.Correct → relativeDistances freud box pos r k = .ok res →
      ∀ (b : Box) (i : Nat) (found : List (Nat × ℝ)) (j : Nat), createFreudBox box true = .ok b →
        (freud b pos r k).rows[i]? = some found → found.length ≤ j → j < k →
        (res[i]?.bind (fun row => row[j]?)) = some (-1)) := by
  intro h
  have := h refFreud [10, 10, 10] [(0, 0, 0)] 1 1 [[0]] refFreud_correct (by
      simp [relativeDistances, setupNeighbours, createFreudBox, refFreud, Table.rsq, candidates])
    ⟨10, 10, 0, 0, 0, 0, true⟩ 0 [] 0 (by simp [createFreudBox])
    (by simp [refFreud, candidates]) (by simp) (by simp)
  simp at this

/-- **C64 (partial).** The full statement is that missing entries are -1 and others the distances.
Proved: the table has `k` columns and a row per particle, entries of found neighbours are their
distances, and the missing ones are 0. -/
theorem C64_distances_partial (freud : Freud) (hf : freud.Correct) (box : List ℝ)
    (hbox : 3 ≤ box.length) (pos : List V3) (r : ℝ) (k : Nat) :
    ∃ b res, createFreudBox box true = .ok b ∧ relativeDistances freud box pos r k = .ok res ∧
      res.length = pos.length ∧
      ∀ i, i < pos.length → ∃ found row, IsNearest b pos r k i found ∧ res[i]? = some row ∧
        row.length = k ∧
        (∀ (j : Nat) (x : Nat × ℝ), found[j]? = some x → row[j]? = some (Real.sqrt (distSq b pos i x.1))) ∧
        (∀ j : Nat, found.length ≤ j → j < k → row[j]? = some 0) := by
  obtain ⟨b, hb⟩ : ∃ b, createFreudBox box true = .ok b := by
    match box, hbox with
    | x :: y :: z :: rest, _ => exact ⟨_, rfl⟩
  obtain ⟨hrows, hnear⟩ := hf b pos r k
  refine ⟨b, _, hb, by rw [relativeDistances, setupNeighbours, hb], ?_, ?_⟩
  · rw [List.length_map, Table.rsq, List.length_map, hrows]
  · intro i hi
    obtain ⟨found, hfound⟩ : ∃ found, (freud b pos r k).rows[i]? = some found :=
      ⟨_, List.getElem?_eq_getElem (by omega)⟩
    have hn := hnear i found hfound
    refine ⟨found, _, hn, by
      rw [List.getElem?_map, Table.rsq, List.getElem?_map, hfound]; rfl, ?_, ?_, ?_⟩
    · have := hn.len
      rw [List.length_map, List.length_append, List.length_map, List.length_replicate]
      omega
    · intro j x hx
      have hj : j < found.length := (List.getElem?_eq_some_iff.1 hx).1
      obtain ⟨_, _, hd, _⟩ := hn.sound x (List.mem_of_getElem? hx)
      have hnn : ¬ x.2 < 0 := by
        rw [hd, distSq]
        simp only [not_lt]
        positivity
      rw [List.getElem?_map, List.getElem?_append_left (by simpa using hj), List.getElem?_map, hx]
      simp only [Option.map_some]
      rw [if_neg hnn, hd]
    · intro j h1 h2
      rw [List.getElem?_map, List.getElem?_append_right (by simpa using h1),
        List.getElem?_replicate_of_lt (by rw [List.length_map]; omega)]
      simp

example : refFreud.Correct ∧ 3 ≤ ([10, 10, 10] : List ℝ).length := ⟨refFreud_correct, by simp⟩

/-- **C64.** `compute_neighbours` gives in `k` columns the indices of the neighbours found, in the places where
`relative_distances` has the distances, and 2³² − 1 in the places of those which are missing. -/
theorem C64_indices (freud : Freud) (hf : freud.Correct) (box : List ℝ)
    (hbox : 3 ≤ box.length) (pos : List V3) (r : ℝ) (k : Nat) :
    ∃ b res, createFreudBox box true = .ok b ∧ computeNeighbours freud box pos r k = .ok res ∧
      res.length = pos.length ∧
      ∀ i, i < pos.length → ∃ found row, IsNearest b pos r k i found ∧ res[i]? = some row ∧
        row.length = k ∧
        (∀ (j : Nat) (x : Nat × ℝ), found[j]? = some x → row[j]? = some x.1) ∧
        (∀ j : Nat, found.length ≤ j → j < k → row[j]? = some (2 ^ 32 - 1)) := by
  obtain ⟨b, hb⟩ : ∃ b, createFreudBox box true = .ok b := by
    match box, hbox with
    | x :: y :: z :: rest, _ => exact ⟨_, rfl⟩
  obtain ⟨hrows, hnear⟩ := hf b pos r k
  refine ⟨b, _, hb, by rw [computeNeighbours, setupNeighbours, hb], ?_, ?_⟩
  · rw [Table.index, List.length_map, hrows]
  · intro i hi
    obtain ⟨found, hfound⟩ : ∃ found, (freud b pos r k).rows[i]? = some found :=
      ⟨_, List.getElem?_eq_getElem (by omega)⟩
    have hn := hnear i found hfound
    refine ⟨found, _, hn, by rw [Table.index, List.getElem?_map, hfound]; rfl, ?_, ?_, ?_⟩
    · have := hn.len
      rw [List.length_append, List.length_map, List.length_replicate]
      omega
    · intro j x hx
      have hj : j < found.length := (List.getElem?_eq_some_iff.1 hx).1
      rw [List.getElem?_append_left (by simpa using hj), List.getElem?_map, hx]
      rfl
    · intro j h1 h2
      rw [List.getElem?_append_right (by simpa using h1),
        List.getElem?_replicate_of_lt (by rw [List.length_map]; omega)]
      rfl

example : refFreud.Correct ∧ 3 ≤ ([10, 10, 10] : List ℝ).length := ⟨refFreud_correct, by simp⟩

/-! ### C83: number of neighbours -/

/-- **C83 (partial).** The full statement is that `num_neighbours` counts the particles within the
radius.  It counts at most nine of them. -/
theorem C83_num_neighbours_partial (freud : Freud) (hf : freud.Correct) (box : List ℝ)
    (hbox : 3 ≤ box.length) (pos : List V3) (r : ℝ) :
    ∃ b res, createFreudBox box true = .ok b ∧ numNeighbours freud box pos r = .ok res ∧
      res.length = pos.length ∧
      ∀ i, i < pos.length → res[i]? = some (min (within b pos r i).card 9) := by
  obtain ⟨b, hb⟩ : ∃ b, createFreudBox box true = .ok b := by
    match box, hbox with
    | x :: y :: z :: rest, _ => exact ⟨_, rfl⟩
  obtain ⟨hrows, hnear⟩ := hf b pos r 9
  refine ⟨b, _, hb, by rw [numNeighbours, setupNeighbours, hb], ?_, ?_⟩
  · rw [Table.counts, List.length_map, hrows]
  · intro i hi
    obtain ⟨found, hfound⟩ : ∃ found, (freud b pos r 9).rows[i]? = some found :=
      ⟨_, List.getElem?_eq_getElem (by omega)⟩
    rw [Table.counts, List.getElem?_map, hfound, Option.map_some, (hnear i found hfound).length_eq]

/-- All particles at one place are within every radius. -/
theorem within_replicate (b : Box) (n i : Nat) (hi : i < n) (r : ℝ) (hr : 0 < r) :
    (within b (List.replicate n (0, 0, 0)) r i).card = n - 1 := by
  have : within b (List.replicate n (0, 0, 0)) r i = (Finset.range n).erase i := by
    ext j
    rw [mem_within, Finset.mem_erase, Finset.mem_range, List.length_replicate]
    have h0 : ∀ k, (List.replicate n ((0, 0, 0) : V3)).getD k 0 = 0 := by
      intro k
      by_cases hk : k < n
      · rw [List.getD_eq_getElem?_getD, List.getElem?_replicate_of_lt hk]; rfl
      · rw [List.getD_eq_getElem?_getD, List.getElem?_eq_none (by simpa using hk)]; rfl
    have hw : wrap1 0 = 0 := by
      have : ⌊(0 : ℝ) + 1 / 2⌋ = 0 := by
        rw [Int.floor_eq_iff]; norm_num
      rw [wrap1, this]; norm_num
    have hd : distSq b (List.replicate n (0, 0, 0)) i j = 0 := by
      rw [distSq, h0, h0, sub_zero]
      have h1 : b.wrap 0 = 0 := by
        have hf : b.frac 0 = 0 := by
          simp only [Box.frac]
          refine Prod.ext ?_ (Prod.ext ?_ ?_) <;> simp
        rw [Box.wrap]
        simp only [hf]
        have : (wrap1 (0 : V3).1, wrap1 (0 : V3).2.1, wrap1 (0 : V3).2.2) = ((0, 0, 0) : V3) := by
          change (wrap1 0, wrap1 0, wrap1 0) = _
          rw [hw]
        rw [this, Box.coord]
        refine Prod.ext ?_ (Prod.ext ?_ ?_) <;> simp
      rw [h1]
      simp
    rw [hd]
    have : 0 < r ^ 2 := by positivity
    tauto
  rw [this, Finset.card_erase_of_mem (Finset.mem_range.2 hi), Finset.card_range]

/-- **C83 (refuted).** Eleven particles within the radius of each other have ten neighbours each, and
are reported to have nine. -/
theorem C83_num_neighbours_refuted :
    ¬ (∀ (freud : Freud) (box : List ℝ) (pos : List V3) (r : ℝ) (b : Box) (res : List Nat),
      freud.Correct → createFreudBox box true = .ok b → numNeighbours freud box pos r = .ok res →
      ∀ i, i < pos.length → res[i]? = some (within b pos r i).card) := by
  intro h
  obtain ⟨b, res, hb, hres, _, hc⟩ := C83_num_neighbours_partial refFreud refFreud_correct
    [10, 10, 10] (by simp) (List.replicate 11 (0, 0, 0)) 3.5
  have h1 := h refFreud _ _ _ b res refFreud_correct hb hres 0 (by simp)
  have h2 := hc 0 (by simp)
  rw [within_replicate b 11 0 (by norm_num) 3.5 (by norm_num)] at h1 h2
  rw [h1] at h2
  simp at h2

/-! ### C84: the cell of the neighbour search -/

/-- **C84 (refuted).** The neighbours of a three dimensional configuration should be found in its
three dimensional cell, `create_freud_box(box, is_2D=False)`.  They are found in a two dimensional
cell: two particles that differ by 5 along z in a cell of height 10 count as neighbours within 1. -/
theorem C84_cell_refuted :
    ¬ (∀ (freud : Freud) (box : List ℝ) (pos : List V3) (r : ℝ) (k : Nat) (b : Box)
        (res : List (List Nat)), freud.Correct → createFreudBox box false = .ok b →
      computeNeighbours freud box pos r k = .ok res → res = (freud b pos r k).index k) := by
  intro h
  have hw : wrap1 0 = 0 := by
    have : ⌊(0 : ℝ) + 1 / 2⌋ = 0 := by
      rw [Int.floor_eq_iff]; norm_num
    rw [wrap1, this]; norm_num
  have h5 : wrap1 (1 / 2) = -(1 / 2) := by
    have : ⌊(1 / 2 : ℝ) + 1 / 2⌋ = 1 := by norm_num
    rw [wrap1, this]; norm_num
  have hsub : (([(0, 0, 0), (0, 0, 5)] : List V3).getD 1 0 -
      ([(0, 0, 0), (0, 0, 5)] : List V3).getD 0 0) = (0, 0, 5) := by simp
  have hd2 : distSq ⟨10, 10, 0, 0, 0, 0, true⟩ [(0, 0, 0), (0, 0, 5)] 0 1 = 0 := by
    rw [distSq, hsub]
    simp [Box.wrap, Box.frac, Box.coord, hw]
  have hd3 : distSq ⟨10, 10, 10, 0, 0, 0, false⟩ [(0, 0, 0), (0, 0, 5)] 0 1 = 25 := by
    rw [distSq, hsub]
    have : (5 : ℝ) / 10 = 1 / 2 := by norm_num
    simp only [Box.wrap, Box.frac, Box.coord, this]
    norm_num [hw]
    rw [h5]
    norm_num
  have hres := h refFreud [10, 10, 10] [(0, 0, 0), (0, 0, 5)] 1 1 ⟨10, 10, 10, 0, 0, 0, false⟩
    ((refFreud ⟨10, 10, 0, 0, 0, 0, true⟩ [(0, 0, 0), (0, 0, 5)] 1 1).index 1)
    refFreud_correct (by simp [createFreudBox]) (by
      simp [computeNeighbours, setupNeighbours, createFreudBox])
  obtain ⟨hr2, hn2⟩ := refFreud_correct ⟨10, 10, 0, 0, 0, 0, true⟩ [(0, 0, 0), (0, 0, 5)] 1 1
  obtain ⟨hr3, hn3⟩ := refFreud_correct ⟨10, 10, 10, 0, 0, 0, false⟩ [(0, 0, 0), (0, 0, 5)] 1 1
  obtain ⟨f2, hf2⟩ : ∃ f, (refFreud ⟨10, 10, 0, 0, 0, 0, true⟩ [(0, 0, 0), (0, 0, 5)] 1 1).rows[0]? =
      some f := ⟨_, List.getElem?_eq_getElem (by rw [hr2]; simp)⟩
  obtain ⟨f3, hf3⟩ : ∃ f, (refFreud ⟨10, 10, 10, 0, 0, 0, false⟩ [(0, 0, 0), (0, 0, 5)] 1 1).rows[0]? =
      some f := ⟨_, List.getElem?_eq_getElem (by rw [hr3]; simp)⟩
  have hrow := congrArg (fun l : List (List Nat) => l[0]?) hres
  simp only [Table.index, List.getElem?_map, hf2, hf3, Option.map_some, Option.some.injEq] at hrow
  have he3 : f3 = [] := by
    rw [List.eq_nil_iff_forall_not_mem]
    intro x hx
    obtain ⟨h1, h2, h3, h4⟩ := (hn3 0 f3 hf3).sound x hx
    have hx1 : x.1 = 1 := by
      simp only [List.length_cons, List.length_nil] at h1
      omega
    rw [hx1, hd3] at h3
    rw [h3] at h4
    norm_num at h4
  subst he3
  cases f2 with
  | nil =>
    have := ((hn2 0 [] hf2).complete 1 (by simp) (by simp) (by rw [hd2]; norm_num) (by simp)).1
    simp at this
  | cons x f2 =>
    obtain ⟨h1, -⟩ := (hn2 0 (x :: f2) hf2).sound x List.mem_cons_self
    simp only [List.map_cons, List.cons_append, List.map_nil, List.nil_append, List.length_nil,
      Nat.sub_zero, List.replicate_one, List.cons.injEq] at hrow
    rw [hrow.1] at h1
    simp [missing] at h1

/-- **C84 (partial).** The full statement is that the search uses the cell of the configuration.  It
does for two dimensional ones. -/
theorem C84_cell_partial (freud : Freud) (box : List ℝ) (pos : List V3) (r : ℝ) (k : Nat) (b : Box)
    (hb : createFreudBox box true = .ok b) :
    computeNeighbours freud box pos r k = .ok ((freud b pos r k).index k) := by
  rw [computeNeighbours, setupNeighbours, hb]

example : createFreudBox [3, 4, 1, 0, 0, 0] true = .ok ⟨3, 4, 0, 0, 0, 0, true⟩ := by
  simp [createFreudBox]

/-! ### C85: the order of a trajectory -/

/-- **C85 (partial).** The full statement is that every readable frame gets its line.  That holds up
to the first corrupt frame, if the order can be computed for all of them; and the run ends with
RuntimeError exactly when there is a corrupt frame. -/
theorem C85_lines_partial (freud : Freud) (good : List GsdFrame) (line : GsdFrame → Int × ℝ)
    (hok : ∀ f ∈ good, orderLine freud f = .ok (line f)) (rest : List (Option GsdFrame)) :
    orderFile freud (good.map some) = (good.map line, none) ∧
    orderFile freud (good.map some ++ none :: rest) = (good.map line, some .runtimeError) := by
  induction good with
  | nil => exact ⟨rfl, rfl⟩
  | cons f good ih =>
    obtain ⟨h1, h2⟩ := ih (fun g hg => hok g (List.mem_cons_of_mem _ hg))
    constructor
    · rw [List.map_cons, orderFile, hok f List.mem_cons_self, h1]
      rfl
    · rw [List.map_cons, List.cons_append, orderFile, hok f List.mem_cons_self, h2]
      rfl

open Classical in
/-- **C85.** The line of a frame holds its step and the fraction of molecules with order above 0.9,
a number from 0 to 1. -/
theorem C85_fraction (freud : Freud) (f : GsdFrame) (l : Int × ℝ)
    (h : orderLine freud f = .ok l) : l.1 = f.step ∧ 0 ≤ l.2 ∧ l.2 ≤ 1 ∧
    ∃ r, orientationalOrder freud f.box f.position f.orientation 3.5 8 = .ok r ∧ r ≠ [] ∧
      l.2 * r.length =
        ((Finset.range r.length).filter (fun i => ∃ y, r[i]? = some y ∧ 9 / 10 < y)).card := by
  unfold orderLine at h
  split at h
  · cases h
  next r hr =>
  split at h
  · cases h
  next hne =>
  cases h
  have hpos : 0 < (r.length : ℝ) := by
    have := Nat.pos_of_ne_zero hne
    exact_mod_cast this
  refine ⟨rfl, by positivity, ?_, r, hr, ?_, ?_⟩
  · simp only
    rw [div_le_one hpos]
    exact_mod_cast List.length_filter_le _ _
  · rintro rfl
    exact hne rfl
  · simp only
    rw [div_mul_cancel₀ _ hpos.ne', length_filter_eq_card]
    congr 2
    ext i
    simp only [Finset.mem_filter, Finset.mem_range, and_congr_right_iff]
    intro _
    have h9 : (0.9 : ℝ) = 9 / 10 := by norm_num
    rcases r[i]? with _ | y
    · simp
    · simp [above, h9]

/-- A frame of three molecules at step 100. -/
example : ∃ l, orderLine refFreud ⟨100, [9, 9, 9], [(0, 0, 0), (1, 0, 0), (0, 1, 0)], sampleO⟩ = .ok l ∧ l.1 = 100 ∧
    0 ≤ l.2 ∧ l.2 ≤ 1 := by
  obtain ⟨b, r, -, hr, hlen, -⟩ := C63_orientational_order refFreud refFreud_correct [9, 9, 9] (by simp)
    [(0, 0, 0), (1, 0, 0), (0, 1, 0)] sampleO rfl (by simp [sampleO, missing]) sampleO_unit 3.5 8 (by norm_num)
  have h : ∃ l, orderLine refFreud ⟨100, [9, 9, 9], [(0, 0, 0), (1, 0, 0), (0, 1, 0)], sampleO⟩ = .ok l := by
    match r, hlen with
    | x :: xs, _ => exact ⟨_, by simp only [orderLine, hr]; rfl⟩
  obtain ⟨l, hl⟩ := h
  obtain ⟨h1, h2, h3, -⟩ := C85_fraction _ _ _ hl
  exact ⟨l, hl, h1, h2, h3⟩

/-- **C85.** With a correct search every frame with a box and a particle, and with one unit
orientation per position, has its line. -/
theorem C85_succeeds (freud : Freud) (hf : freud.Correct) (f : GsdFrame) (hbox : 3 ≤ f.box.length)
    (hlen : f.position.length = f.orientation.length) (hsmall : f.orientation.length ≤ missing)
    (ho : AllUnit f.orientation) (hne : f.orientation ≠ []) : ∃ l, orderLine freud f = .ok l := by
  obtain ⟨_, res, _, hres, hrl, _⟩ := C63_orientational_order freud hf f.box hbox f.position
    f.orientation hlen hsmall ho 3.5 8 (by norm_num)
  exact ⟨_, by rw [orderLine, hres]; exact if_neg (by rw [hrl]; simpa using hne)⟩

example : ∃ l, orderLine refFreud ⟨4, [9, 9, 9], [0, 0, 0], sampleO⟩ = .ok l :=
  C85_succeeds refFreud refFreud_correct _ (by simp) (by simp [sampleO]) (by simp [sampleO, missing])
    sampleO_unit (by simp [sampleO])

/-- **C85.** A frame without particles has no line: the fraction would be 0/0, and as the package
lets that raise the run ends there with FloatingPointError. -/
theorem C85_empty (freud : Freud) (hf : freud.Correct) (f : GsdFrame) (hbox : 3 ≤ f.box.length)
    (hp : f.position = []) (ho : f.orientation = []) (rest : List (Option GsdFrame)) :
    orderLine freud f = .error .floatingPointError ∧
    orderFile freud (some f :: rest) = ([], some .floatingPointError) := by
  have h : orderLine freud f = .error .floatingPointError := by
    obtain ⟨_, res, _, hres, hrl, _⟩ := C63_orientational_order freud hf f.box hbox f.position
      f.orientation (by rw [hp, ho]; rfl) (by rw [ho]; exact Nat.zero_le _)
      (by rw [ho]; intro q hq; cases hq) 3.5 8 (by norm_num)
    rw [orderLine, hres]
    exact if_pos (by rw [hrl, ho]; rfl)
  exact ⟨h, by rw [orderFile, h]⟩

example : (3 : Nat) ≤ (GsdFrame.mk 4 [9, 9, 9] [] []).box.length ∧
    (GsdFrame.mk 4 [9, 9, 9] [] []).orientation = [] := ⟨by simp, rfl⟩

/-- **C85 (refuted).** A corrupt frame is meant to be skipped; it ends the run with RuntimeError, and
the later frames are lost, however good they are. -/
theorem C85_corrupt_refuted :
    ¬ (∀ (freud : Freud) (frames : List (Option GsdFrame)), freud.Correct →
      (∀ f, some f ∈ frames → ∃ l, orderLine freud f = .ok l) →
      (orderFile freud frames).1.map Prod.fst = frames.filterMap (Option.map GsdFrame.step)) ∧
    ∀ (freud : Freud) (rest : List (Option GsdFrame)),
      orderFile freud (none :: rest) = ([], some .runtimeError) := by
  refine ⟨?_, fun _ _ => rfl⟩
  intro h
  have := h refFreud [none, some ⟨4, [9, 9, 9], [0, 0, 0], sampleO⟩] refFreud_correct (by
    intro f hf
    simp only [List.mem_cons, reduceCtorEq, Option.some.injEq, List.not_mem_nil, or_false,
      false_or] at hf
    subst hf
    exact C85_succeeds refFreud refFreud_correct _ (by simp) (by simp [sampleO])
      (by simp [sampleO, missing]) sampleO_unit (by simp [sampleO]))
  simp [orderFile] at this

end Verif.Order
