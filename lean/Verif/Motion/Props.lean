import Mathlib.Tactic.NormNum
import Mathlib.Analysis.Real.Pi.Bounds
import Verif.Motion.Lemmas
/-!
# C29, C30, C31: tracked motion
-/

namespace Verif.Motion

open Quaternion

/-- **C29**.  `u i m` is the true, unwrapped position of molecule `m` in frame `i`, `s i m` the
stored position, any periodic image of it.  When every step is shorter than half the cell in each
lattice direction, the tracked displacement after frames `0, …, n` is the true one. -/
theorem C29_unwrapped (c : Cell) (hc : c.Proper) (b : Box)
    (hb : createFreudBox c.array c.is2D = .ok b) {N : ℕ} (hN : 0 < N)
    (u s : ℕ → Fin N → V3) (o : ℕ → Option (Fin N → Quat)) (ho : Unit o) (n : ℕ)
    (hs : ∀ i ≤ n, ∀ m, c.Lattice (c.flat (s i m - u i m)))
    (hu : ∀ i < n, ∀ m, c.WithinHalf (c.flat (u (i + 1) m - u i m))) :
    ∃ T, track b (frame s o 0) (frames s o 1 (n + 1)) = .ok T ∧
      T.deltaT = List.ofFn (fun m => c.flat (u n m - u 0 m)) := by
  have hb' : b = c.box := by
    rw [createFreudBox_cell] at hb
    exact (Except.ok.inj hb).symm
  subst hb'
  refine ⟨_, track_closed hN c.box s o ho n, ?_⟩
  simp only
  congr 1
  funext m
  exact sumT_unwrapped c hc s u m n (fun i hi => hs i hi m) (fun i hi => hu i hi m)

/-- A molecule walking through a tilted 2D cell of edge 4, crossing the boundary in frame 2. -/
example : ∃ (c : Cell) (u s : ℕ → Fin 1 → V3), c.Proper ∧ c.xy = 1 / 2 ∧ c.is2D = true ∧
    (∀ i ≤ 3, ∀ m, c.Lattice (c.flat (s i m - u i m))) ∧
    (∀ i < 3, ∀ m, c.WithinHalf (c.flat (u (i + 1) m - u i m))) ∧
    (∃ m, s 3 m ≠ u 3 m) := by
  refine ⟨⟨4, 4, 1, 1 / 2, 0, 0, true⟩, fun i _ => (i, 0, 0),
    fun i _ => if i < 2 then (i, 0, 0) else (i - 4, 0, 0), ?_, rfl, rfl, ?_, ?_, 0, ?_⟩
  · simp [Cell.Proper]
  · intro i _ m
    by_cases h : i < 2
    · exact ⟨0, 0, 0, by simp [Cell.flat, Cell.comb, h]⟩
    · exact ⟨-1, 0, 0, by simp [Cell.flat, Cell.comb, h]⟩
  · intro i _ m
    refine ⟨1 / 4, 0, 0, by rw [abs_lt]; constructor <;> norm_num, by simp, by simp, ?_⟩
    simp [Cell.flat, Cell.comb]
  · simp

/-- The cell may also be given by its three lengths alone, when it is not tilted. -/
theorem C29_untilted (Lx Ly Lz : ℝ) (d : Bool) :
    createFreudBox [Lx, Ly, Lz] d = createFreudBox [Lx, Ly, Lz, 0, 0, 0] d := rfl

/-- **C30**.  With no assumption on the steps, the tracked displacement differs from the difference
of the stored positions by a lattice vector. -/
theorem C30_congruent (c : Cell) (hc : c.Proper) (b : Box)
    (hb : createFreudBox c.array c.is2D = .ok b) {N : ℕ} (hN : 0 < N)
    (s : ℕ → Fin N → V3) (o : ℕ → Option (Fin N → Quat)) (ho : Unit o) (n : ℕ) :
    ∃ T d, track b (frame s o 0) (frames s o 1 (n + 1)) = .ok T ∧ T.deltaT = List.ofFn d ∧
      ∀ m : Fin N, c.Lattice (d m - c.flat (s n m - s 0 m)) := by
  have hb' : b = c.box := by
    rw [createFreudBox_cell] at hb
    exact (Except.ok.inj hb).symm
  subst hb'
  exact ⟨_, _, track_closed hN c.box s o ho n, rfl, fun m => sumT_lattice c hc s m n⟩

/-- **C30**, the increments: each frame changes the tracked displacement by a vector of the central
cell, whatever was tracked before. -/
theorem C30_central (c : Cell) (hc : c.Proper) (b : Box)
    (hb : createFreudBox c.array c.is2D = .ok b) {N : ℕ} (hN : 0 < N)
    (s : ℕ → Fin N → V3) (o : ℕ → Option (Fin N → Quat)) (ho : Unit o) (n : ℕ) :
    ∃ T T' d d', track b (frame s o 0) (frames s o 1 (n + 1)) = .ok T ∧
      track b (frame s o 0) (frames s o 1 (n + 2)) = .ok T' ∧
      T.deltaT = List.ofFn d ∧ T'.deltaT = List.ofFn d' ∧
      ∀ m : Fin N, c.Central (d' m - d m) := by
  have hb' : b = c.box := by
    rw [createFreudBox_cell] at hb
    exact (Except.ok.inj hb).symm
  subst hb'
  refine ⟨_, _, _, _, track_closed hN c.box s o ho n, track_closed hN c.box s o ho (n + 1), rfl,
    rfl, fun m => ?_⟩
  obtain ⟨-, α, β, γ, ha, hb, hg, h⟩ := wrap_spec c hc (s n m - s (n + 1) m)
  refine ⟨-α, -β, -γ, ⟨by linarith, by linarith⟩, ⟨by linarith, by linarith⟩,
    ⟨by linarith, by linarith⟩, ?_⟩
  rw [← comb_neg, ← h]
  unfold sumT
  rw [Finset.sum_range_succ]
  abel

/-- A cell, a trajectory and unit orientations. -/
example : ∃ (c : Cell) (s : ℕ → Fin 2 → V3) (o : ℕ → Option (Fin 2 → Quat)),
    c.Proper ∧ Unit o ∧ (∃ i, (o i).isSome) ∧ ∃ m, s 0 m ≠ s 1 m := by
  refine ⟨⟨3, 4, 5, 1, -1, 1 / 2, false⟩, fun i m => (i, m.val, 7 * i), fun _ => some fun _ => 1,
    by simp [Cell.Proper], ?_, ⟨0, rfl⟩, 0, by simp⟩
  intro i q h m
  obtain rfl := Option.some.inj h
  simp

/-- **C31**.  Molecules turning about z, with angle `θ i m` in frame `i` (counted through, not
modulo a turn) and either sign `σ` of the quaternion.  When no angle changes by `π` or more between
two frames, the tracked rotation is the whole turning angle about z and nothing about the other
axes. -/
theorem C31_turns (b : Box) {N : ℕ} (hN : 0 < N) (s : ℕ → Fin N → V3) (θ : ℕ → Fin N → ℝ)
    (σ : ℕ → Fin N → ℝ) (hσ : ∀ i m, σ i m = 1 ∨ σ i m = -1)
    (o : ℕ → Option (Fin N → Quat)) (ho : ∀ i, o i = some (fun m => σ i m • zRot (θ i m))) (n : ℕ)
    (hθ : ∀ i < n, ∀ m, |θ (i + 1) m - θ i m| < Real.pi) :
    ∃ T, track b (frame s o 0) (frames s o 1 (n + 1)) = .ok T ∧
      T.deltaR = List.ofFn (fun m => (θ n m - θ 0 m, 0, 0)) := by
  have neg : ∀ q : Quat, (-1 : ℝ) • q = -q := fun q => neg_one_smul ℝ q
  have hunit : Unit o := by
    intro i q hq m
    rw [ho] at hq
    obtain rfl := Option.some.inj hq
    rcases hσ i m with h | h <;> simp [h, neg, normSq_zRot]
  refine ⟨_, track_closed hN b s o hunit n, ?_⟩
  simp only
  congr 1
  funext m
  have hinc : ∀ i < n, rotInc (o i) (o (i + 1)) m = (θ (i + 1) m - θ i m, 0, 0) := by
    intro i hi
    rw [ho, ho]
    have : toEuler (zRot (θ (i + 1) m) * (zRot (θ i m))⁻¹) = (θ (i + 1) m - θ i m, 0, 0) := by
      rw [zRot_inv, zRot_mul, ← sub_eq_add_neg]
      exact toEuler_zRot _ (hθ i hi m)
    have e1 : ∀ q : Quat, (-q)⁻¹ = -q⁻¹ := fun q => by
      rw [Quaternion.inv_def, Quaternion.inv_def, normSq_neg, star_neg, smul_neg]
    have e2 : ∀ p q : Quat, p * -q = -(p * q) := fun p q => mul_neg p q
    have e3 : ∀ p q : Quat, -p * q = -(p * q) := fun p q => neg_mul p q
    rcases hσ i m with h | h <;> rcases hσ (i + 1) m with h' | h' <;>
      simp only [rotInc, h, h', neg, e1, e2, e3, toEuler_neg, one_smul, neg_neg, this]
  clear hθ
  induction n with
  | zero => simp [sumR]; rfl
  | succ n ih =>
    have := ih (fun i hi => hinc i (by omega))
    unfold sumR at this ⊢
    rw [Finset.sum_range_succ, this, hinc n (by omega)]
    simp

/-- A molecule turning by 3 in every frame: past a full turn after three frames. -/
example : ∃ θ : ℕ → Fin 1 → ℝ, (∀ i < 3, ∀ m, |θ (i + 1) m - θ i m| < Real.pi) ∧
    θ 3 0 - θ 0 0 > 2 * Real.pi := by
  refine ⟨fun i _ => 3 * i, ?_, ?_⟩
  · intro i _ m
    have := Real.pi_gt_three
    push_cast
    rw [show (3 * ((i : ℝ) + 1) - 3 * i) = 3 by ring]
    simpa using this
  · have := Real.pi_lt_d2
    push_cast
    linarith

end Verif.Motion
