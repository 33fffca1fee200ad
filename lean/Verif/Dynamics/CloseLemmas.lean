import Verif.Dynamics.CloseModel
import Verif.Dynamics.StructLemmas
/-!
# Lemmas about `molecule2particles` with the array it writes to
-/

namespace Verif.Dynamics

open Verif.Motion Quaternion

theorem closeZero_iff (x : ℝ) : closeZero x ↔ |x| ≤ 1 / 10 ^ 8 := by
  unfold closeZero; simp

theorem not_closeZero_one : ¬ closeZero 1 := by
  rw [closeZero_iff]; norm_num

/-- A unit quaternion is not close to zero. -/
theorem unit_not_close {q : Quat} (h : normSq q = 1) :
    ¬ (closeZero q.re ∧ closeZero q.imI ∧ closeZero q.imJ ∧ closeZero q.imK) := by
  rintro ⟨h1, h2, h3, h4⟩
  rw [closeZero_iff] at h1 h2 h3 h4
  rw [normSq_def'] at h
  have a1 := sq_le_sq' (abs_le.1 h1).1 (abs_le.1 h1).2
  have a2 := sq_le_sq' (abs_le.1 h2).1 (abs_le.1 h2).2
  have a3 := sq_le_sq' (abs_le.1 h3).1 (abs_le.1 h3).2
  have a4 := sq_le_sq' (abs_le.1 h4).1 (abs_le.1 h4).2
  norm_num at a1 a2 a3 a4
  linarith

theorem setFirst_setFirst (o : List Quat) : setFirst (setFirst o) = setFirst o := by
  unfold setFirst
  rw [List.map_map]
  rfl

theorem setFirst_eq_self {o : List Quat} (h : setFirst o = o) : ∀ q ∈ o, q.re = 1 := by
  induction o with
  | nil => simp
  | cons a t ih =>
    simp only [setFirst, List.map_cons, List.cons.injEq] at h
    intro q hq
    rcases List.mem_cons.1 hq with rfl | hq
    · rw [← h.1]; rfl
    · exact ih h.2 q hq

theorem not_close_setFirst {o : List Quat} (h : o ≠ []) : ¬ allCloseZero (setFirst o) := by
  intro hc
  cases o with
  | nil => exact h rfl
  | cons a t =>
    have := hc (withFirst a) (by simp [setFirst])
    exact not_closeZero_one this.1

theorem rotateVectorsTol_unit {o : List Quat} (h : ∀ q ∈ o, normSq q = 1) (v : V3) :
    rotateVectorsTol o v = rotateVectors o v := by
  unfold rotateVectorsTol rotateVectors
  rw [if_pos, if_pos h]
  intro q hq
  rw [h q hq]
  norm_num

theorem rotateAllTol_unit {o : List Quat} (h : ∀ q ∈ o, normSq q = 1) (v : List V3) :
    rotateAllTol o v = rotateAll o v := by
  unfold rotateAllTol rotateAll
  rw [show rotateVectorsTol o = rotateVectors o from funext (rotateVectorsTol_unit h)]
  split
  · rfl
  · cases List.mapM (rotateVectors o) v <;> rfl

/-- The length of a quaternion whose first component is one and whose others are close to zero is
one within the tolerance of rowan. -/
theorem near_norm {q : Quat} (h : closeZero q.imI ∧ closeZero q.imJ ∧ closeZero q.imK) :
    |Real.sqrt (normSq (withFirst q)) - 1| ≤
      1 / 10 ^ 8 + 1 / 10 ^ 5 * |(1 : ℝ)| := by
  obtain ⟨h2, h3, h4⟩ := h
  rw [closeZero_iff] at h2 h3 h4
  have a2 := sq_le_sq' (abs_le.1 h2).1 (abs_le.1 h2).2
  have a3 := sq_le_sq' (abs_le.1 h3).1 (abs_le.1 h3).2
  have a4 := sq_le_sq' (abs_le.1 h4).1 (abs_le.1 h4).2
  norm_num at a2 a3 a4
  rw [normSq_def', show (withFirst q).re = 1 from rfl, show (withFirst q).imI = q.imI from rfl,
    show (withFirst q).imJ = q.imJ from rfl, show (withFirst q).imK = q.imK from rfl]
  simp only [abs_one, mul_one, one_pow]
  rw [abs_le]
  constructor
  · have : (1 : ℝ) ≤ Real.sqrt (1 + q.imI ^ 2 + q.imJ ^ 2 + q.imK ^ 2) := by
      rw [Real.one_le_sqrt]
      nlinarith [sq_nonneg q.imI, sq_nonneg q.imJ, sq_nonneg q.imK]
    norm_num
    linarith
  · have : Real.sqrt (1 + q.imI ^ 2 + q.imJ ^ 2 + q.imK ^ 2) ≤ 1 + 1 / 10 ^ 8 := by
      rw [Real.sqrt_le_left (by norm_num)]
      norm_num
      linarith
    norm_num at this ⊢
    linarith

/-- Turning by a quaternion whose first component is one and whose others are small. -/
theorem rotate_near {q : Quat} (h : closeZero q.imI ∧ closeZero q.imJ ∧ closeZero q.imK)
    {v : V3} {M : ℝ} (hx : |v.1| ≤ M) (hy : |v.2.1| ≤ M) (hz : |v.2.2| ≤ M) :
    |(rotate (withFirst q) v).1 - v.1| ≤ 5 / 10 ^ 8 * M ∧
    |(rotate (withFirst q) v).2.1 - v.2.1| ≤ 5 / 10 ^ 8 * M ∧
    |(rotate (withFirst q) v).2.2 - v.2.2| ≤ 5 / 10 ^ 8 * M := by
  obtain ⟨h2, h3, h4⟩ := h
  rw [closeZero_iff] at h2 h3 h4
  have hM : 0 ≤ M := le_trans (abs_nonneg _) hx
  have w0 : (withFirst q).re = 1 := rfl
  have w1 : (withFirst q).imI = q.imI := rfl
  have w2 : (withFirst q).imJ = q.imJ := rfl
  have w3 : (withFirst q).imK = q.imK := rfl
  generalize withFirst q = r at *
  generalize q.imI = a at *
  generalize q.imJ = b at *
  generalize q.imK = c at *
  obtain ⟨x, y, z⟩ := v
  simp only at hx hy hz
  -- products of two numbers
  have P : ∀ s t : ℝ, |s| ≤ 1 / 10 ^ 8 → |t| ≤ M → |s * t| ≤ 1 / 10 ^ 8 * M := by
    intro s t hs ht
    rw [abs_mul]
    exact mul_le_mul hs ht (abs_nonneg _) (by norm_num)
  have Q : ∀ s r t : ℝ, |s| ≤ 1 / 10 ^ 8 → |r| ≤ 1 / 10 ^ 8 → |t| ≤ M →
      |s * r * t| ≤ 1 / 10 ^ 16 * M := by
    intro s r t hs hr ht
    rw [abs_mul, abs_mul]
    have : |s| * |r| ≤ 1 / 10 ^ 16 := by
      have := mul_le_mul hs hr (abs_nonneg _) (by norm_num)
      norm_num at this ⊢
      exact this
    exact mul_le_mul this ht (abs_nonneg _) (by norm_num)
  have e1 : (rotate r (x, y, z)).1 - x =
      a * a * x - b * b * x - c * c * x + 2 * (a * b * y) + 2 * (a * c * z) + 2 * (b * z)
        - 2 * (c * y) := by
    rw [rotate_eq]; simp only [turned, w0, w1, w2, w3]; ring
  have e2 : (rotate r (x, y, z)).2.1 - y =
      b * b * y - a * a * y - c * c * y + 2 * (a * b * x) + 2 * (b * c * z) + 2 * (c * x)
        - 2 * (a * z) := by
    rw [rotate_eq]; simp only [turned, w0, w1, w2, w3]; ring
  have e3 : (rotate r (x, y, z)).2.2 - z =
      c * c * z - a * a * z - b * b * z + 2 * (a * c * x) + 2 * (b * c * y) + 2 * (a * y)
        - 2 * (b * x) := by
    rw [rotate_eq]; simp only [turned, w0, w1, w2, w3]; ring
  refine ⟨?_, ?_, ?_⟩
  · rw [e1]
    have q1 := abs_le.1 (Q a a x h2 h2 hx)
    have q2 := abs_le.1 (Q b b x h3 h3 hx)
    have q3 := abs_le.1 (Q c c x h4 h4 hx)
    have q4 := abs_le.1 (Q a b y h2 h3 hy)
    have q5 := abs_le.1 (Q a c z h2 h4 hz)
    have q6 := abs_le.1 (P b z h3 hz)
    have q7 := abs_le.1 (P c y h4 hy)
    norm_num at q1 q2 q3 q4 q5 q6 q7 ⊢
    rw [abs_le]
    constructor <;> linarith [q1.1, q1.2, q2.1, q2.2, q3.1, q3.2, q4.1, q4.2, q5.1, q5.2, q6.1,
      q6.2, q7.1, q7.2]
  · rw [e2]
    have q1 := abs_le.1 (Q b b y h3 h3 hy)
    have q2 := abs_le.1 (Q a a y h2 h2 hy)
    have q3 := abs_le.1 (Q c c y h4 h4 hy)
    have q4 := abs_le.1 (Q a b x h2 h3 hx)
    have q5 := abs_le.1 (Q b c z h3 h4 hz)
    have q6 := abs_le.1 (P c x h4 hx)
    have q7 := abs_le.1 (P a z h2 hz)
    norm_num at q1 q2 q3 q4 q5 q6 q7 ⊢
    rw [abs_le]
    constructor <;> linarith [q1.1, q1.2, q2.1, q2.2, q3.1, q3.2, q4.1, q4.2, q5.1, q5.2, q6.1,
      q6.2, q7.1, q7.2]
  · rw [e3]
    have q1 := abs_le.1 (Q c c z h4 h4 hz)
    have q2 := abs_le.1 (Q a a z h2 h2 hz)
    have q3 := abs_le.1 (Q b b z h3 h3 hz)
    have q4 := abs_le.1 (Q a c x h2 h4 hx)
    have q5 := abs_le.1 (Q b c y h3 h4 hy)
    have q6 := abs_le.1 (P a y h2 hy)
    have q7 := abs_le.1 (P b x h3 hx)
    norm_num at q1 q2 q3 q4 q5 q6 q7 ⊢
    rw [abs_le]
    constructor <;> linarith [q1.1, q1.2, q2.1, q2.2, q3.1, q3.2, q4.1, q4.2, q5.1, q5.2, q6.1,
      q6.2, q7.1, q7.2]

theorem rotateAllTol_ofFn {K N : ℕ} (hK : 0 < K) (q : Fin N → Quat)
    (hq : ∀ m, |Real.sqrt (normSq (q m)) - 1| ≤ 1 / 10 ^ 8 + 1 / 10 ^ 5 * |(1 : ℝ)|)
    (v : Fin K → V3) :
    rotateAllTol (List.ofFn q) (List.ofFn v) =
      .ok (List.ofFn (fun n : Fin (K * N) => rotate (q n.modNat) (v n.divNat))) := by
  unfold rotateAllTol
  rw [if_neg (by simp; omega)]
  have : (List.ofFn v).mapM (rotateVectorsTol (List.ofFn q)) =
      .ok ((List.ofFn v).map (fun x => List.ofFn (fun m => rotate (q m) x))) := by
    apply mapM_ok
    intro x _
    unfold rotateVectorsTol
    rw [if_pos, map_ofFn']
    intro a ha
    rw [List.mem_ofFn] at ha
    obtain ⟨i, rfl⟩ := ha
    exact hq i
  rw [this]
  simp only [map_ofFn']
  rw [flatten_ofFn (fun p m => rotate (q m) (v p))]

theorem run_array (position : List V3) {o : List Quat} (h : ¬ allCloseZero o) (v : List V3) :
    molecule2particlesRun position (.array o) v =
      (match rotateAllTol o v with
        | .error e => .error e
        | .ok rotated => bcast (· + ·) rotated (position.flatMap (fun p => List.replicate v.length p)),
        .array o) := by
  unfold molecule2particlesRun
  simp only
  rw [if_neg h]
  cases rotateAllTol o v <;> rfl

theorem run_close (position : List V3) {o : List Quat} (h : allCloseZero o) (v : List V3) :
    molecule2particlesRun position (.array o) v =
      (match rotateAllTol (setFirst o) v with
        | .error e => .error e
        | .ok rotated => bcast (· + ·) rotated (position.flatMap (fun p => List.replicate v.length p)),
        .array (setFirst o)) := by
  unfold molecule2particlesRun
  simp only
  rw [if_pos h]
  cases rotateAllTol (setFirst o) v <;> rfl

end Verif.Dynamics
