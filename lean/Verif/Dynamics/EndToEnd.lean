import Verif.Motion.Props
import Verif.Dynamics.Props
import Verif.Dynamics.OverlapProps
/-!
# C79: the reported quantities are those of the true motion

From stored (wrapped) positions and orientations of a whole trajectory to the row of numbers that
`compute_all` gives for its last frame.
-/

namespace Verif.Dynamics

open Verif.Motion

/-- What is known of a trajectory: `u i m` is the true position of molecule `m` in frame `i`, `s i m`
the stored periodic image of it; `θ i m` the angle it has turned about z, and `o i` the stored
orientations, of either sign `σ`.  From frame to frame molecules move less than half the cell and
turn less than half a turn. -/
structure Follows {N : ℕ} (c : Cell) (n : ℕ) (u s : ℕ → Fin N → V3) (θ σ : ℕ → Fin N → ℝ)
    (o : ℕ → Option (Fin N → Quat)) : Prop where
  cell : c.Proper
  image : ∀ i ≤ n, ∀ m, c.Lattice (c.flat (s i m - u i m))
  stepT : ∀ i < n, ∀ m, c.WithinHalf (c.flat (u (i + 1) m - u i m))
  sign : ∀ i m, σ i m = 1 ∨ σ i m = -1
  orient : ∀ i, o i = some (fun m => σ i m • zRot (θ i m))
  stepR : ∀ i < n, ∀ m, |θ (i + 1) m - θ i m| < Real.pi

theorem Follows.unit {N : ℕ} {c : Cell} {n : ℕ} {u s : ℕ → Fin N → V3} {θ σ : ℕ → Fin N → ℝ}
    {o : ℕ → Option (Fin N → Quat)} (h : Follows c n u s θ σ o) : Unit o := by
  have neg : ∀ q : Quat, (-1 : ℝ) • q = -q := fun q => neg_one_smul ℝ q
  intro i q hq m
  rw [h.orient] at hq
  obtain rfl := Option.some.inj hq
  rcases h.sign i m with h | h <;> simp [h, neg, normSq_zRot]

/-- The tracked motion is the true one. -/
theorem Follows.sums {N : ℕ} (hN : 0 < N) {c : Cell} {n : ℕ} {u s : ℕ → Fin N → V3}
    {θ σ : ℕ → Fin N → ℝ} {o : ℕ → Option (Fin N → Quat)} (h : Follows c n u s θ σ o) :
    sumT c.box s n = (fun m => c.flat (u n m - u 0 m)) ∧
      sumR o n = fun m => (θ n m - θ 0 m, 0, 0) := by
  constructor
  · funext m
    exact sumT_unwrapped c h.cell s u m n (fun i hi => h.image i hi m) (fun i hi => h.stepT i hi m)
  · obtain ⟨T, hT, hR⟩ := Verif.Motion.C31_turns c.box hN s θ σ h.sign o h.orient n h.stepR
    rw [track_closed hN c.box s o h.unit n] at hT
    obtain rfl := Except.ok.inj hT
    exact List.ofFn_injective hR

theorem len_angle (φ : ℝ) : len (φ, 0, 0) = |φ| := by
  unfold len len2
  simp only [mul_zero, add_zero]
  exact Real.sqrt_mul_self_eq_abs φ

open Classical in
/-- **C79**.  The row for frame `n + 1` reports the moments of the true displacements and of the true
turning angles, the rotational relaxations of these angles, and the proportion of molecules that
really stayed within a quarter of the wave length. -/
theorem C79_true_motion {N : ℕ} (hN : 0 < N) (argsort : List ℝ → List ℕ) (c : Cell)
    (mol : Option Mol) (hmol : is2d mol = c.is2D) (k : Option ℝ) (res : ℕ) (t0 t : ℤ)
    (sc : Bool) {n : ℕ} {u s : ℕ → Fin N → V3} {θ σ : ℕ → Fin N → ℝ}
    {o : ℕ → Option (Fin N → Quat)} (h : Follows c (n + 1) u s θ σ o) {row : Dict Quantity Val}
    (hrow : rowAt argsort c.array mol k res t0 (frame s o 0) (frames s o 1 (n + 1)) t
      (frame s o (n + 1)) sc = .ok row) :
    Dict.get? row .time = some (.int (t - t0)) ∧
    Reports row .mean_displacement (avg (fun m => len (c.flat (u (n + 1) m - u 0 m)))) ∧
    Reports row .msd (avg (fun m => len2 (c.flat (u (n + 1) m - u 0 m)))) ∧
    Reports row .mfd (avg (fun m => len2 (c.flat (u (n + 1) m - u 0 m)) ^ 2)) ∧
    Reports row .mean_rotation (avg (fun m => |θ (n + 1) m - θ 0 m|)) ∧
    Reports row .msr (avg (fun m => (θ (n + 1) m - θ 0 m) ^ 2)) ∧
    Reports row .rot1 (avg (fun m => Real.cos (θ (n + 1) m - θ 0 m))) ∧
    Reports row .rot2 (avg (fun m => Real.cos (2 * (θ (n + 1) m - θ 0 m)))) ∧
    ∀ κ, k = some κ → Reports row .com_struct (((Finset.univ.filter (fun m =>
      len (c.flat (u (n + 1) m - u 0 m)) < Real.pi / (2 * κ))).card : ℝ) / N) := by
  have hb : createFreudBox c.array (is2d mol) = .ok c.box := by
    rw [hmol]
    exact createFreudBox_cell c
  rw [rowAt_eq hN argsort hb k res t0 t s o h.unit n sc] at hrow
  obtain ⟨hT, hR⟩ := h.sums hN
  set D := dynAfter c.box mol k res t0 s o (n + 1) with hD
  have hd : D.motion.deltaT = List.ofFn (fun m => c.flat (u (n + 1) m - u 0 m)) := by
    rw [← hT]; rfl
  have hr : D.motion.deltaR = List.ofFn (fun m => (θ (n + 1) m - θ 0 m, 0, 0)) := by
    rw [← hR]; rfl
  have hall : (dynAfter c.box mol k res t0 s o n).computeAll argsort t (frame s o (n + 1)).1
      (frame s o (n + 1)).2 sc = (D, .ok row) := by
    rw [computeAll_dynAfter argsort c.box mol k res t0 t s o h.unit n sc, hrow]
  obtain ⟨md, msd, mfd, mr, msr, h1, h2, h3, h4, h5, e1, e2, e3, e4, e5, -⟩ :=
    C33_moments hall hN _ _ hd hr
  obtain ⟨x1, x2, g1, g2, f1, f2, -⟩ := C35_rotational hall hN _ hr
  subst e1 e2 e3 e4 e5 f1 f2
  have q4 : ∀ v : V3, len v ^ 4 = len2 v ^ 2 := fun v => by rw [← len_sq]; ring
  simp only [len_sq] at h2 h5
  simp only [q4] at h3
  simp only [len_angle, Real.cos_abs] at h4 g1 g2
  have c2 : ∀ x : ℝ, Real.cos (2 * |x|) = Real.cos (2 * x) := fun x => by
    rw [← Real.cos_abs (2 * x), abs_mul, abs_two]
  simp only [c2] at g2
  have l2 : ∀ x : ℝ, len2 (x, 0, 0) = x ^ 2 := fun x => by unfold len2; simp; ring
  simp only [l2] at h5
  refine ⟨(C38_keys hall).2, h1, h2, h3, h4, h5, g1, g2, ?_⟩
  intro κ hκ
  exact C36_com_struct hall (k := κ) (by rw [← hκ]; rfl) _ hd

/-- Ten molecules in a tilted cell, one of which walks out of the cell while turning, stored with
positions wrapped back and alternating signs of the quaternion; the row exists. -/
example (argsort : List ℝ → List ℕ) : ∃ (c : Cell) (u s : ℕ → Fin 10 → V3) (θ σ : ℕ → Fin 10 → ℝ)
    (o : ℕ → Option (Fin 10 → Quat)) (row : Dict Quantity Val), Follows c 6 u s θ σ o ∧
    is2d (some exMol) = c.is2D ∧ s 6 0 ≠ u 6 0 ∧ θ 6 0 - θ 0 0 > 2 * Real.pi ∧
    rowAt argsort c.array (some exMol) (some 2) 360 0 (frame s o 0) (frames s o 1 6) 5
      (frame s o 6) true = .ok row := by
  let c : Cell := ⟨4, 4, 1, 1 / 2, 0, 0, true⟩
  let u : ℕ → Fin 10 → V3 := fun i m => if m = 0 then (i, 0, 0) else 0
  let s : ℕ → Fin 10 → V3 := fun i m => if m = 0 then if i ≤ 1 then (i, 0, 0) else (i - 4, 0, 0)
    else 0
  let θ : ℕ → Fin 10 → ℝ := fun i m => if m = 0 then 3 * i else 0
  let σ : ℕ → Fin 10 → ℝ := fun i _ => if i % 2 = 0 then 1 else -1
  let o : ℕ → Option (Fin 10 → Quat) := fun i => some (fun m => σ i m • zRot (θ i m))
  have hpi := Real.pi_gt_three
  have hpi' := Real.pi_lt_d2
  have hF : Follows c 6 u s θ σ o := by
    refine ⟨by simp [c, Cell.Proper], ?_, ?_, ?_, fun i => rfl, ?_⟩
    · intro i _ m
      by_cases hm : m = 0
      · by_cases h : i ≤ 1
        · exact ⟨0, 0, 0, by simp [c, u, s, hm, Cell.flat, Cell.comb, h]⟩
        · exact ⟨-1, 0, 0, by simp [c, u, s, hm, Cell.flat, Cell.comb, h]⟩
      · exact ⟨0, 0, 0, by simp [c, u, s, hm, Cell.flat, Cell.comb]⟩
    · intro i _ m
      by_cases hm : m = 0
      · refine ⟨1 / 4, 0, 0, by rw [abs_lt]; constructor <;> norm_num, by simp, by simp, ?_⟩
        simp [c, u, hm, Cell.flat, Cell.comb]
      · exact ⟨0, 0, 0, by simp, by simp, by simp, by simp [c, u, hm, Cell.flat, Cell.comb]⟩
    · intro i m
      by_cases h : i % 2 = 0 <;> simp [σ, h]
    · intro i _ m
      by_cases hm : m = 0
      · simp only [θ, hm, if_true]
        push_cast
        rw [show (3 * ((i : ℝ) + 1) - 3 * i) = 3 by ring]
        simpa using hpi
      · simp only [θ, hm, if_false, sub_self, abs_zero]
        linarith
  obtain ⟨row, hrow⟩ := C38_succeeds (N := 10) le_rfl argsort c (some exMol)
    (by intro m hm; obtain rfl := Option.some.inj hm; simp [exMol]) (some 2) (by simp) 360 0 5 s o
    hF.unit 5 true
  refine ⟨c, u, s, θ, σ, o, row, hF, rfl, by simp [s, u], ?_, hrow⟩
  simp only [θ, if_true]
  push_cast
  linarith

end Verif.Dynamics
