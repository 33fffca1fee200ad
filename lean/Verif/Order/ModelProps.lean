import Mathlib.Analysis.SpecialFunctions.Trigonometric.Inverse
import Mathlib.Analysis.Real.Pi.Bounds
import Verif.Order.VoronoiModel
import Verif.Order.Props
/-!
# Property C114: classification by a trained model
-/

namespace Verif.Order

open Quaternion Verif.Motion

/-! ## the angle of two quaternions -/

theorem vnorm_eq_zero {u : Quat} (hu : normSq u = 1) : vnorm u = 0 ↔ u.re ^ 2 = 1 := by
  have hsum : u.re ^ 2 + (u.imI ^ 2 + u.imJ ^ 2 + u.imK ^ 2) = 1 := by
    have := hu
    rw [normSq_def'] at this
    linarith
  rw [vnorm, Real.sqrt_eq_zero (by positivity)]
  constructor <;> intro h <;> linarith

open Classical in
/-- The distance is the angle between the quaternions, but 0 for opposite ones. -/
theorem intrinsic_eq (p q : Quat) (hp : dot p p = 1) (hq : dot q q = 1) :
    intrinsicDistance p q = if p = -q then 0 else Real.arccos (dot p q) := by
  have hu := normSq_div p q hp hq
  have hv := vnorm_eq_zero hu
  rw [re_div p q hq] at hv
  rw [intrinsicDistance, qnorm_log _ hu, re_div p q hq]
  by_cases h : p = -q
  · rw [if_pos h, if_pos (hv.2 ((dot_one_iff p q hp hq).2 (Or.inr h)))]
  · rw [if_neg h]
    split
    · rename_i h1
      rcases (dot_one_iff p q hp hq).1 (hv.1 h1) with rfl | h2
      · rw [hq, Real.arccos_one]
      · exact absurd h2 h
    · rfl

theorem intrinsic_congr {p q p' q' : Quat} (hp : dot p p = 1) (hq : dot q q = 1) (hp' : dot p' p' = 1)
    (hq' : dot q' q' = 1) (h : dot p' q' = dot p q) (hn : p' = -q' ↔ p = -q) :
    intrinsicDistance p' q' = intrinsicDistance p q := by
  rw [intrinsic_eq p q hp hq, intrinsic_eq p' q' hp' hq', h]
  by_cases h1 : p = -q
  · rw [if_pos h1, if_pos (hn.2 h1)]
  · rw [if_neg h1, if_neg (fun h2 => h1 (hn.1 h2))]

theorem neg_unit {q : Quat} (hq : dot q q = 1) : dot (-q) (-q) = 1 := by
  rw [dot_neg_left, dot_neg_right, neg_neg, hq]

open Classical in
/-- Changing the sign of one of them. -/
theorem intrinsic_neg (p q : Quat) (hp : dot p p = 1) (hq : dot q q = 1) :
    intrinsicDistance (-p) q = if p = q ∨ p = -q then 0 else Real.pi - intrinsicDistance p q := by
  rw [intrinsic_eq (-p) q (neg_unit hp) hq, intrinsic_eq p q hp hq, dot_neg_left, Real.arccos_neg]
  by_cases h1 : p = q
  · simp [h1]
  · have : -p ≠ -q := fun h => h1 (neg_inj.1 h)
    by_cases h2 : p = -q
    · subst h2
      rw [if_neg this, dot_neg_left, hq, Real.arccos_neg_one]
      simp
    · rw [if_neg this, if_neg h2, if_neg (by tauto)]

/-- Rotations about the z axis: the difference of the angles. -/
theorem intrinsic_zRot (a b : ℝ) (h : |a - b| < 2 * Real.pi) :
    2 * intrinsicDistance (zRot a) (zRot b) = |a - b| := by
  have hd : dot (zRot a) (zRot b) = Real.cos (|a - b| / 2) := by
    have : |a - b| / 2 = |(a - b) / 2| := by rw [abs_div, abs_two]
    rw [this, Real.cos_abs, sub_div, Real.cos_sub]
    simp [dot, zRot]
  have hne : zRot a ≠ -zRot b := by
    intro hn
    have : dot (zRot a) (zRot b) = -1 := by rw [hn, dot_neg_left, zRot_unit]
    rw [hd, ← Real.cos_pi] at this
    have := Real.injOn_cos ⟨by positivity, by linarith⟩ ⟨Real.pi_pos.le, le_rfl⟩ this
    linarith
  rw [intrinsic_eq _ _ (zRot_unit a) (zRot_unit b), if_neg hne, hd,
    Real.arccos_cos (by positivity) (by linarith)]
  ring

/-! ## what the model is given -/

open Classical in
/-- **C114.** The model is given a row for every molecule, with eight angles: those to its nearest molecules
within 3.5, nearest first as freud gives them, then zeros.  The angles are in [0, 2π). -/
theorem C114_input {L : Type} (freud : Freud) (hf : freud.Correct)
    (predict : List (List ℝ) → Except PyErr (List L)) (box : List ℝ) (hbox : 3 ≤ box.length) (pos : List V3)
    (o : List Quat) (hlen : pos.length = o.length) (hsmall : o.length ≤ missing) (ho : AllUnit o) :
    ∃ b x, createFreudBox box true = .ok b ∧ mlOrdering freud predict box pos o = predict x ∧
      x.length = o.length ∧
      ∀ (i : Nat) (q : Quat), o[i]? = some q → ∃ found row, IsNearest b pos 3.5 8 i found ∧
        x[i]? = some row ∧ row.length = 8 ∧
        (∀ (j : Nat) (y : Nat × ℝ), found[j]? = some y → ∃ p, o[y.1]? = some p ∧
          row[j]? = some (if p = -q then 0 else 2 * Real.arccos (dot p q))) ∧
        (∀ j : Nat, found.length ≤ j → j < 8 → row[j]? = some 0) ∧
        ∀ a ∈ row, 0 ≤ a ∧ a < 2 * Real.pi := by
  obtain ⟨b, hb⟩ : ∃ b, createFreudBox box true = .ok b := by
    match box, hbox with
    | x :: y :: z :: rest, _ => exact ⟨_, rfl⟩
  obtain ⟨hrows, hnear⟩ := hf b pos 3.5 8
  have hnl : ((freud b pos 3.5 8).index 8).length = o.length := by
    rw [Table.index, List.length_map, hrows, hlen]
  obtain ⟨x, hx, hxl, hrow⟩ := neighbourRelativeAngle_ok _ o hnl
  have hrel : relativeOrientations freud box pos o 3.5 8 = .ok x := by
    rw [relativeOrientations, computeNeighbours, setupNeighbours, hb]
    exact hx
  refine ⟨b, x, hb, by rw [mlOrdering, hrel], hxl, ?_⟩
  intro i q hq
  have hi : i < o.length := (List.getElem?_eq_some_iff.1 hq).1
  have hqu : dot q q = 1 := ho q (List.mem_of_getElem? hq)
  obtain ⟨found, hfound⟩ : ∃ found, (freud b pos 3.5 8).rows[i]? = some found :=
    ⟨_, List.getElem?_eq_getElem (by omega)⟩
  have hn := hnear i found hfound
  have hq' : o.getD i 0 = q := by simp [List.getD_eq_getElem?_getD, hq]
  refine ⟨found, _, hn, hrow i _ (by rw [Table.index, List.getElem?_map, hfound]; rfl), ?_, ?_, ?_, ?_⟩
  · have := hn.len
    simp only [angleRow, List.length_map, List.length_append, List.length_replicate]
    omega
  · intro j y hy
    have hj : j < found.length := (List.getElem?_eq_some_iff.1 hy).1
    have hyo : y.1 < o.length := hlen ▸ (hn.sound y (List.mem_of_getElem? hy)).1
    refine ⟨o[y.1], List.getElem?_eq_getElem hyo, ?_⟩
    have hp' : o.getD y.1 0 = o[y.1] := getD_lt o _ hyo
    rw [angleRow, List.getElem?_map, List.getElem?_append_left (by simpa using hj),
      List.getElem?_map, hy]
    simp only [Option.map_some]
    rw [if_pos hyo, hq', hp', intrinsic_eq _ _ (ho _ (List.getElem_mem hyo)) hqu]
    split <;> simp
  · intro j h1 h2
    rw [angleRow, List.getElem?_map, List.getElem?_append_right (by simpa using h1),
      List.getElem?_replicate_of_lt (by rw [List.length_map]; omega)]
    simp only [Option.map_some]
    rw [if_neg (by omega), hq', intrinsic_self q hqu, mul_zero]
  · intro a ha
    rw [angleRow, List.mem_map] at ha
    obtain ⟨j, -, rfl⟩ := ha
    have hpu : dot (o.getD (if j < o.length then j else i) 0) (o.getD (if j < o.length then j else i) 0) = 1 := by
      split
      · rename_i h; exact ho.getD j h
      · exact ho.getD i hi
    rw [hq']
    generalize o.getD (if j < o.length then j else i) 0 = p at hpu
    rw [intrinsic_eq _ _ hpu hqu]
    have hpi := Real.pi_pos
    by_cases hne : p = -q
    · rw [if_pos hne]
      exact ⟨by simp, by linarith⟩
    · rw [if_neg hne]
      refine ⟨by have := Real.arccos_nonneg (dot p q); linarith, ?_⟩
      rcases (Real.arccos_le_pi (dot p q)).lt_or_eq with h | h
      · linarith
      · exfalso
        rw [Real.arccos_eq_pi] at h
        have h1 := dot_sq_le_one _ _ hpu hqu
        have h2 : dot p q ^ 2 = 1 := by nlinarith
        rcases (dot_one_iff _ _ hpu hqu).1 h2 with h3 | h3
        · rw [h3, hqu] at h; norm_num at h
        · exact hne h3

/-- The hypotheses of `C114_input`. -/
example : refFreud.Correct ∧ AllUnit sampleO ∧ sampleO.length ≤ missing :=
  ⟨refFreud_correct, sampleO_unit, by simp [sampleO, missing]⟩

/-! ## invariance -/

/-- Only the angles between the quaternions matter. -/
theorem relative_congr (freud : Freud) (hf : freud.Correct) (box : List ℝ) (pos : List V3) (o o' : List Quat)
    (hlen : pos.length = o.length) (hlen' : o'.length = o.length) (r : ℝ) (k : Nat)
    (h : ∀ i j, i < o.length → j < o.length →
      intrinsicDistance (o'.getD j 0) (o'.getD i 0) = intrinsicDistance (o.getD j 0) (o.getD i 0)) :
    relativeOrientations freud box pos o' r k = relativeOrientations freud box pos o r k := by
  unfold relativeOrientations computeNeighbours setupNeighbours
  cases hb : createFreudBox box true with
  | error e => rfl
  | ok b =>
    simp only
    have hnl : ((freud b pos r k).index k).length = o.length := by
      rw [Table.index, List.length_map, (hf b pos r k).1, hlen]
    obtain ⟨x, hx, hxl, hrow⟩ := neighbourRelativeAngle_ok _ o hnl
    obtain ⟨x', hx', hxl', hrow'⟩ := neighbourRelativeAngle_ok _ o' (hnl.trans hlen'.symm)
    rw [hx, hx']
    congr 1
    apply List.ext_getElem?
    intro i
    by_cases hi : i < o.length
    · have hi' := List.getElem?_eq_getElem (l := (freud b pos r k).index k) (i := i) (by omega)
      rw [hrow i _ hi', hrow' i _ hi']
      congr 1
      unfold angleRow
      apply List.map_congr_left
      intro j _
      rw [hlen']
      congr 1
      apply h i _ hi
      split <;> assumption
    · rw [List.getElem?_eq_none (by omega), List.getElem?_eq_none (by omega)]

/-- The full property: quaternions of opposite sign are the same orientation, so a classification by a trained
model is the same for both. -/
def SignsIrrelevant (L : Type) : Prop :=
  ∀ (freud : Freud) (predict : List (List ℝ) → Except PyErr (List L)) (box : List ℝ) (pos : List V3)
    (o o' : List Quat), freud.Correct → 3 ≤ box.length → pos.length = o.length → o.length ≤ missing →
    AllUnit o → o'.length = o.length →
    (∀ (i : Nat) (q q' : Quat), o[i]? = some q → o'[i]? = some q' → q' = q ∨ q' = -q) →
    mlOrdering freud predict box pos o' = mlOrdering freud predict box pos o

/-- **C114**, partial: changing the sign of all quaternions, and rotating all molecules together, on either side,
change nothing, whatever the model. -/
theorem C114_rotation_partial {L : Type} (freud : Freud) (hf : freud.Correct)
    (predict : List (List ℝ) → Except PyErr (List L)) (box : List ℝ) (pos : List V3) (o : List Quat)
    (hlen : pos.length = o.length) (ho : AllUnit o) (g : Quat) (hg : dot g g = 1) :
    mlOrdering freud predict box pos (o.map (fun q => -q)) = mlOrdering freud predict box pos o ∧
    mlOrdering freud predict box pos (o.map (fun q => g * q)) = mlOrdering freud predict box pos o ∧
    mlOrdering freud predict box pos (o.map (fun q => q * g)) = mlOrdering freud predict box pos o := by
  have hg0 : g ≠ 0 := by rintro rfl; simp [dot] at hg
  have key : ∀ f : Quat → Quat, (∀ p q, dot (f p) (f q) = dot p q) → (∀ p q, f p = -f q ↔ p = -q) →
      mlOrdering freud predict box pos (o.map f) = mlOrdering freud predict box pos o := by
    intro f h1 h2
    unfold mlOrdering
    rw [relative_congr freud hf box pos o (o.map f) hlen (by simp)]
    intro i j hi hj
    have e : ∀ k, k < o.length → (o.map f).getD k 0 = f (o.getD k 0) := by
      intro k hk
      rw [getD_lt _ k (by simpa using hk), getD_lt o k hk, List.getElem_map]
    rw [e i hi, e j hj]
    exact intrinsic_congr (ho.getD j hj) (ho.getD i hi) (by rw [h1]; exact ho.getD j hj)
      (by rw [h1]; exact ho.getD i hi) (h1 _ _) (h2 _ _)
  refine ⟨key _ ?_ ?_, key _ ?_ ?_, key _ ?_ ?_⟩
  · intro p q; rw [dot_neg_left, dot_neg_right, neg_neg]
  · intro p q; rw [neg_inj]
  · intro p q; rw [dot_mul_left, hg, one_mul]
  · intro p q; show g * p = -(g * q) ↔ p = -q; rw [show -(g * q) = g * (-q) from (mul_neg g q).symm]; exact mul_right_inj' hg0
  · intro p q; rw [dot_mul_right, hg, one_mul]
  · intro p q; show p * g = -(q * g) ↔ p = -q; rw [show -(q * g) = -q * g from (neg_mul q g).symm]; exact mul_left_inj' hg0

/-- Three molecules, all turned by one radian about the axis perpendicular to the plane. -/
example (predict : List (List ℝ) → Except PyErr (List Nat)) :
    mlOrdering refFreud predict [9, 9, 9] [(0, 0, 0), (1, 0, 0), (0, 1, 0)] (sampleO.map (fun q => zRot 1 * q)) =
      mlOrdering refFreud predict [9, 9, 9] [(0, 0, 0), (1, 0, 0), (0, 1, 0)] sampleO :=
  (C114_rotation_partial refFreud refFreud_correct predict _ _ _ rfl sampleO_unit (zRot 1) (zRot_unit 1)).2.1

/-- **C114**, partial: exactly what a change of signs does.  The angle of two molecules whose signs are both
changed or both kept stays; otherwise an angle `a` between molecules of different orientation becomes
`2π - a`, and a molecule of the same orientation has angle 0 with either sign. -/
theorem C114_sign_partial (p q p' q' : Quat) (hp : dot p p = 1) (hq : dot q q = 1)
    (hp' : p' = p ∨ p' = -p) (hq' : q' = q ∨ q' = -q) :
    2 * intrinsicDistance p' q' = 2 * intrinsicDistance p q ∨
      (¬ (p = q ∨ p = -q) ∧ 2 * intrinsicDistance p' q' = 2 * Real.pi - 2 * intrinsicDistance p q) := by
  have h1 : intrinsicDistance (-p) (-q) = intrinsicDistance p q :=
    intrinsic_congr hp hq (neg_unit hp) (neg_unit hq) (by rw [dot_neg_left, dot_neg_right, neg_neg])
      (by rw [neg_inj])
  have h2 : intrinsicDistance p (-q) = intrinsicDistance (-p) q :=
    intrinsic_congr (neg_unit hp) hq hp (neg_unit hq) (by rw [dot_neg_left, dot_neg_right])
      (by rw [neg_neg, neg_inj])
  have h3 : 2 * intrinsicDistance (-p) q = 2 * intrinsicDistance p q ∨
      (¬ (p = q ∨ p = -q) ∧ 2 * intrinsicDistance (-p) q = 2 * Real.pi - 2 * intrinsicDistance p q) := by
    rw [intrinsic_neg p q hp hq]
    split
    · rename_i h
      left
      rcases h with rfl | rfl
      · rw [intrinsic_self _ hp]
      · rw [intrinsic_eq _ _ hp hq, if_pos rfl]
    · rename_i h
      exact Or.inr ⟨h, by ring⟩
  rcases hp' with rfl | rfl <;> rcases hq' with rfl | rfl
  · exact Or.inl rfl
  · rw [h2]; exact h3
  · exact h3
  · rw [h1]; exact Or.inl rfl

/-- The angle to a molecule turned by two radians, and to the same molecule given by the other quaternion. -/
example : 2 * intrinsicDistance (-zRot 2) (zRot 0) = 2 * intrinsicDistance (zRot 2) (zRot 0) ∨
    (¬ (zRot 2 = zRot 0 ∨ zRot 2 = -zRot 0) ∧
      2 * intrinsicDistance (-zRot 2) (zRot 0) = 2 * Real.pi - 2 * intrinsicDistance (zRot 2) (zRot 0)) :=
  C114_sign_partial _ _ _ _ (zRot_unit 2) (zRot_unit 0) (.inr rfl) (.inl rfl)

/-- For molecules in the plane with angles `a` and `b` the model is given the difference of the numbers `a` and
`b`, even if this is more than half a turn. -/
theorem C114_planar (a b : ℝ) (h : |a - b| < 2 * Real.pi) :
    2 * intrinsicDistance (zRot a) (zRot b) = |a - b| := intrinsic_zRot a b h

/-- Two molecules 0.28 apart in angle, for which the model is given 6. -/
example : |(3 : ℝ) - (-3)| < 2 * Real.pi ∧ |(3 : ℝ) - (-3)| = 6 := by
  have := Real.pi_gt_three
  rw [show (3 : ℝ) - (-3) = 6 by norm_num, abs_of_pos (by norm_num : (0 : ℝ) < 6)]
  exact ⟨by linarith, rfl⟩

/-- Two molecules at distance 1 are neighbours. -/
theorem two_found {found : List (Nat × ℝ)}
    (h : IsNearest ⟨10, 10, 0, 0, 0, 0, true⟩ [(0, 0, 0), (1, 0, 0)] 3.5 8 0 found) :
    ∃ y, found[0]? = some y ∧ y.1 = 1 := by
  have h0 : wrap1 0 = 0 := by
    have : ⌊(0 : ℝ) + 1 / 2⌋ = 0 := by
      rw [Int.floor_eq_iff]; norm_num
    rw [wrap1, this]; norm_num
  have h1 : wrap1 (1 / 10) = 1 / 10 := by
    have : ⌊(1 / 10 : ℝ) + 1 / 2⌋ = 0 := by
      rw [Int.floor_eq_iff]; norm_num
    rw [wrap1, this]; norm_num
  have hd : distSq ⟨10, 10, 0, 0, 0, 0, true⟩ [(0, 0, 0), (1, 0, 0)] 0 1 = 1 := by
    norm_num [distSq, Box.wrap, Box.frac, Box.coord, h0, h1]
  have hall : ∀ y ∈ found, y.1 = 1 := by
    intro y hy
    obtain ⟨h2, h3, -⟩ := h.sound y hy
    simp only [List.length_cons, List.length_nil] at h2
    omega
  have hmem : 1 ∈ found.map Prod.fst := by
    by_contra hn
    have hlen := (h.complete 1 (by simp) (by simp) (by rw [hd]; norm_num) hn).1
    obtain ⟨y, hy⟩ := List.exists_mem_of_length_pos (by omega : 0 < found.length)
    exact hn (List.mem_map.2 ⟨y, hy, hall y hy⟩)
  obtain ⟨y, hy, -⟩ := List.mem_map.1 hmem
  have hpos := List.length_pos_of_mem hy
  exact ⟨found[0], List.getElem?_eq_getElem hpos, hall _ (List.getElem_mem hpos)⟩

/-- C114 in full is false: a model that tells angles below π from those above. -/
theorem C114_signs_refuted : ¬ SignsIrrelevant Bool := by
  intro h
  have hpi := Real.pi_gt_three
  let predict : List (List ℝ) → Except PyErr (List Bool) :=
    fun x => .ok (x.map (fun row => decide (Real.pi < row.headD 0)))
  have hb : createFreudBox ([10, 10, 1] : List ℝ) true = .ok ⟨10, 10, 0, 0, 0, 0, true⟩ := rfl
  have ho : AllUnit [zRot 0, zRot 1] := by
    intro q hq
    simp only [List.mem_cons, List.not_mem_nil, or_false] at hq
    rcases hq with rfl | rfl <;> exact zRot_unit _
  have ho' : AllUnit [zRot 0, -zRot 1] := by
    intro q hq
    simp only [List.mem_cons, List.not_mem_nil, or_false] at hq
    rcases hq with rfl | rfl
    · exact zRot_unit _
    · exact neg_unit (zRot_unit _)
  have h1 : 2 * intrinsicDistance (zRot 1) (zRot 0) = 1 := by
    rw [intrinsic_zRot 1 0 (by norm_num; linarith)]; norm_num
  have hne : ¬ (zRot 1 = zRot 0 ∨ zRot 1 = -zRot 0) := by
    rintro (h2 | h2)
    · rw [h2, intrinsic_self _ (zRot_unit 0)] at h1; norm_num at h1
    · rw [intrinsic_eq _ _ (zRot_unit 1) (zRot_unit 0), if_pos h2] at h1; norm_num at h1
  have h2 : 2 * intrinsicDistance (-zRot 1) (zRot 0) = 2 * Real.pi - 1 := by
    rw [intrinsic_neg _ _ (zRot_unit 1) (zRot_unit 0), if_neg hne]; linarith
  -- the first angle of the first molecule
  have first : ∀ p : Quat, AllUnit [zRot 0, p] → ∃ x row,
      mlOrdering refFreud predict [10, 10, 1] [(0, 0, 0), (1, 0, 0)] [zRot 0, p] = predict x ∧
      x[0]? = some row ∧ row.headD 0 = 2 * intrinsicDistance p (zRot 0) := by
    intro p hp
    obtain ⟨b, x, hb', hx, -, hrow⟩ := C114_input refFreud refFreud_correct predict [10, 10, 1] (by simp)
      [(0, 0, 0), (1, 0, 0)] [zRot 0, p] rfl (by simp [missing]) hp
    rw [hb] at hb'
    cases hb'
    obtain ⟨found, row, hn, hr, -, hent, -⟩ := hrow 0 (zRot 0) rfl
    obtain ⟨y, hy, hy1⟩ := two_found hn
    obtain ⟨p', hp', hval⟩ := hent 0 y hy
    rw [hy1] at hp'
    obtain rfl : p = p' := by simpa using hp'
    refine ⟨x, row, hx, hr, ?_⟩
    rw [intrinsic_eq _ _ (hp p (by simp)) (zRot_unit 0)]
    rw [List.headD_eq_head?_getD, List.head?_eq_getElem?, hval]
    split <;> simp
  obtain ⟨x, row, hx, hr, hv⟩ := first (zRot 1) ho
  obtain ⟨x', row', hx', hr', hv'⟩ := first (-zRot 1) ho'
  have heq := h refFreud predict [10, 10, 1] [(0, 0, 0), (1, 0, 0)] [zRot 0, zRot 1] [zRot 0, -zRot 1]
    refFreud_correct (by simp) rfl (by simp [missing]) ho rfl (by
      intro i q q' hq hq'
      match i, hq, hq' with
      | 0, hq, hq' => left; simp at hq hq'; rw [← hq, ← hq']
      | 1, hq, hq' => right; simp at hq hq'; rw [← hq, ← hq'])
  rw [hx, hx'] at heq
  have := congrArg (fun l : List Bool => l[0]?) (Except.ok.inj heq)
  simp only [List.getElem?_map, hr, hr', hv, hv', h1, h2, Option.map_some] at this
  have e1 : decide (Real.pi < 2 * Real.pi - 1) = true := by simp; linarith
  have e2 : decide (Real.pi < 1) = false := by simp; linarith
  rw [e1, e2] at this
  simp at this

end Verif.Order
