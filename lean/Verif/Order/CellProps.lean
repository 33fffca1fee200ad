import Verif.Order.Props
/-!
# Property C84: which neighbours the search in the two dimensional cell finds
-/

namespace Verif.Order

open Verif.Motion

/-- The sum of the wrapped fractions along z is zero exactly for whole numbers of cells. -/
theorem wrap1_eq_zero (t : ℝ) : wrap1 t = 0 ↔ ∃ n : ℤ, t = n := by
  unfold wrap1
  constructor
  · intro h
    exact ⟨⌊t + 1 / 2⌋, by linarith⟩
  · rintro ⟨n, rfl⟩
    have : ⌊(n : ℝ) + 1 / 2⌋ = n := by
      rw [Int.floor_eq_iff]
      constructor <;> linarith
    rw [this, sub_self]

/-- **C84, what is searched.**  For a cell that is not tilted along z, the square of the distance used by
the search of a three dimensional configuration is that of the nearest images less the square of the
difference along z, so it is never larger. -/
theorem C84_distance (box : List ℝ) (pos : List V3) (b2 b3 : Box) (h2 : createFreudBox box true = .ok b2)
    (h3 : createFreudBox box false = .ok b3) (hx : b3.xz = 0) (hy : b3.yz = 0) (i j : Nat) :
    distSq b3 pos i j = distSq b2 pos i j +
      (wrap1 ((pos.getD j 0 - pos.getD i 0).2.2 / b3.Lz) * b3.Lz) ^ 2 := by
  match box, h2, h3 with
  | Lx :: Ly :: Lz :: rest, h2, h3 =>
    simp only [createFreudBox, if_true, Bool.false_eq_true, if_false, Except.ok.injEq] at h2 h3
    subst h2 h3
    simp only at hx hy
    simp only [distSq, Box.wrap, Box.frac, Box.coord, hx, hy]
    simp

/-- **C84, exactly.**  The search of a three dimensional configuration, in a cell that is not tilted along z,
uses the right distance of two molecules exactly when their difference along z is a whole number of cells. -/
theorem C84_exactly (box : List ℝ) (pos : List V3) (b2 b3 : Box) (h2 : createFreudBox box true = .ok b2)
    (h3 : createFreudBox box false = .ok b3) (hx : b3.xz = 0) (hy : b3.yz = 0) (hz : 0 < b3.Lz) (i j : Nat) :
    distSq b2 pos i j = distSq b3 pos i j ↔
      ∃ n : ℤ, (pos.getD j 0).2.2 - (pos.getD i 0).2.2 = n * b3.Lz := by
  rw [C84_distance box pos b2 b3 h2 h3 hx hy i j, eq_comm, add_eq_left, sq_eq_zero_iff, mul_eq_zero,
    or_iff_left hz.ne', wrap1_eq_zero]
  constructor <;> rintro ⟨n, hn⟩ <;> refine ⟨n, ?_⟩
  · exact (div_eq_iff hz.ne').1 hn
  · exact (div_eq_iff hz.ne').2 hn

/-- **C84.**  The search finds at least the molecules that are near in three dimensions. -/
theorem C84_at_least (box : List ℝ) (pos : List V3) (b2 b3 : Box) (h2 : createFreudBox box true = .ok b2)
    (h3 : createFreudBox box false = .ok b3) (hx : b3.xz = 0) (hy : b3.yz = 0) (r : ℝ) (i : Nat) :
    within b3 pos r i ⊆ within b2 pos r i := by
  intro j hj
  simp only [within, Finset.mem_filter] at hj ⊢
  refine ⟨hj.1, hj.2.1, lt_of_le_of_lt ?_ hj.2.2⟩
  rw [C84_distance box pos b2 b3 h2 h3 hx hy i j]
  exact le_add_of_nonneg_right (sq_nonneg _)

/-- A cubic cell and two molecules above each other: the difference along z is half a cell. -/
example : createFreudBox [10, 10, 10] true = .ok ⟨10, 10, 0, 0, 0, 0, true⟩ ∧
    createFreudBox [10, 10, 10] false = .ok ⟨10, 10, 10, 0, 0, 0, false⟩ ∧
    distSq ⟨10, 10, 0, 0, 0, 0, true⟩ [(0, 0, 0), (0, 0, 5)] 0 1 ≠
      distSq ⟨10, 10, 10, 0, 0, 0, false⟩ [(0, 0, 0), (0, 0, 5)] 0 1 := by
  have h2 : createFreudBox [10, 10, 10] true = .ok ⟨10, 10, 0, 0, 0, 0, true⟩ := by simp [createFreudBox]
  have h3 : createFreudBox [10, 10, 10] false = .ok ⟨10, 10, 10, 0, 0, 0, false⟩ := by simp [createFreudBox]
  refine ⟨h2, h3, fun h => ?_⟩
  obtain ⟨n, hn⟩ := (C84_exactly _ _ _ _ h2 h3 rfl rfl (by norm_num) 0 1).1 h
  simp at hn
  have : (2 * n : ℤ) = 1 := by
    have : (2 : ℝ) * n = 1 := by linarith
    exact_mod_cast this
  omega

end Verif.Order
