import Verif.Motion.Props
/-!
# Exactly when the tracked motion is the true one: C29, C31, C95
-/

namespace Verif.Motion

open Quaternion

/-- One step is found again from stored positions exactly when it is in the central cell. -/
theorem wrap_step_iff (c : Cell) (hc : c.Proper) (s s' u u' : V3)
    (hs : c.Lattice (c.flat (s - u))) (hs' : c.Lattice (c.flat (s' - u'))) :
    c.box.wrap (s - s') = -c.flat (u' - u) ↔ c.Central (c.flat (u' - u)) := by
  constructor
  · intro h
    obtain ⟨-, α, β, γ, ha, hb, hg, hw⟩ := wrap_spec c hc (s - s')
    rw [hw] at h
    refine ⟨-α, -β, -γ, ⟨by linarith, by linarith⟩, ⟨by linarith, by linarith⟩,
      ⟨by linarith, by linarith⟩, ?_⟩
    rw [← comb_neg, h, neg_neg]
  · rintro ⟨α, β, γ, ha, hb, hg, hu⟩
    obtain ⟨i, j, k, h⟩ := hs
    obtain ⟨i', j', k', h'⟩ := hs'
    rw [hu, comb_neg]
    apply wrap_image c hc _ _ _ _ (i - i') (j - j') (k - k')
    · constructor <;> linarith
    · constructor <;> linarith
    · constructor <;> linarith
    · have : s - s' = (s - u) - (s' - u') - (u' - u) := by abel
      rw [this, flat_sub, flat_sub, h, h', hu, comb_sub, comb_sub]
      push_cast
      congr 1 <;> ring

/-- One step is found again, whatever the stored positions, exactly when the stored step differs from it
by a vector of the lattice and it is in the central cell. -/
theorem wrap_any_iff (c : Cell) (hc : c.Proper) (s s' u u' : V3) :
    c.box.wrap (s - s') = -c.flat (u' - u) ↔
      c.Lattice (c.flat ((s' - s) - (u' - u))) ∧ c.Central (c.flat (u' - u)) := by
  constructor
  · intro h
    have hl : c.Lattice (c.flat ((s' - s) - (u' - u))) := by
      obtain ⟨⟨i, j, k, hw⟩, -⟩ := wrap_spec c hc (s - s')
      refine ⟨-i, -j, -k, ?_⟩
      rw [hw] at h
      have : c.flat ((s' - s) - (u' - u)) = -(c.flat (s - s') + c.flat (u' - u)) := by
        rw [flat_sub, flat_sub, flat_sub c s s']
        abel
      rw [this, sub_eq_iff_eq_add.1 h]
      have e : -c.flat (u' - u) + c.comb ↑i ↑j ↑k + c.flat (u' - u) = c.comb ↑i ↑j ↑k := by abel
      rw [e, comb_neg]
      push_cast
      rfl
    refine ⟨hl, ?_⟩
    obtain ⟨-, α, β, γ, ha, hb, hg, hw⟩ := wrap_spec c hc (s - s')
    rw [hw] at h
    refine ⟨-α, -β, -γ, ⟨by linarith, by linarith⟩, ⟨by linarith, by linarith⟩,
      ⟨by linarith, by linarith⟩, ?_⟩
    rw [← comb_neg, h, neg_neg]
  · rintro ⟨hl, hcen⟩
    have h0 : c.Lattice (c.flat (s - s)) := by
      have : c.flat (s - s) = 0 := by
        simp only [sub_self, Cell.flat]
        split <;> rfl
      rw [this]
      exact .zero c
    have hd : s + (u' - u) - s = u' - u := by abel
    have := (wrap_step_iff c hc s s' s (s + (u' - u)) h0 (by
      have e : s' - (s + (u' - u)) = (s' - s) - (u' - u) := by abel
      rw [e]
      exact hl)).2 (by rw [hd]; exact hcen)
    rwa [hd] at this

/-- **C95, exactly**, at the level of the tracker, which knows the cell `c` of the first frame only.
Whatever the stored positions `s`, and the cells they were stored in: the tracked displacement is the
true one after every frame if and only if each stored step differs from the true one by a lattice vector
of the first cell, and no step is longer than half of that cell. -/
theorem C95_exactly (c : Cell) (hc : c.Proper) (b : Box)
    (hb : createFreudBox c.array c.is2D = .ok b) {N : ℕ} (hN : 0 < N)
    (u s : ℕ → Fin N → V3) (o : ℕ → Option (Fin N → Quat)) (ho : Unit o) (n : ℕ) :
    (∀ i ≤ n, ∃ T, track b (frame s o 0) (frames s o 1 (i + 1)) = .ok T ∧
      T.deltaT = List.ofFn (fun m => c.flat (u i m - u 0 m))) ↔
    ∀ i < n, ∀ m, c.Lattice (c.flat ((s (i + 1) m - s i m) - (u (i + 1) m - u i m))) ∧
      c.Central (c.flat (u (i + 1) m - u i m)) := by
  have hb' : b = c.box := by
    rw [createFreudBox_cell] at hb
    exact (Except.ok.inj hb).symm
  subst hb'
  have hval : ∀ i, (∃ T, track c.box (frame s o 0) (frames s o 1 (i + 1)) = .ok T ∧
      T.deltaT = List.ofFn (fun m => c.flat (u i m - u 0 m))) ↔
      ∀ m, sumT c.box s i m = c.flat (u i m - u 0 m) := by
    intro i
    rw [track_closed hN c.box s o ho i]
    constructor
    · rintro ⟨T, hT, h⟩ m
      obtain rfl := Except.ok.inj hT
      exact congrFun (List.ofFn_injective h) m
    · intro h
      exact ⟨_, rfl, congrArg List.ofFn (funext h)⟩
  have hsucc : ∀ i m, sumT c.box s (i + 1) m = sumT c.box s i m - c.box.wrap (s i m - s (i + 1) m) := by
    intro i m
    unfold sumT
    rw [Finset.sum_range_succ]
    abel
  have hflat : ∀ i m, c.flat (u (i + 1) m - u 0 m) =
      c.flat (u i m - u 0 m) + c.flat (u (i + 1) m - u i m) := by
    intro i m
    rw [← flat_add]
    congr 1
    abel
  constructor
  · intro h i hi m
    have h1 := (hval i).1 (h i hi.le) m
    have h2 := (hval (i + 1)).1 (h (i + 1) hi) m
    rw [hsucc, h1, hflat] at h2
    refine (wrap_any_iff c hc _ _ _ _).1 ?_
    have h3 : -c.box.wrap (s i m - s (i + 1) m) = c.flat (u (i + 1) m - u i m) :=
      add_left_cancel (by rw [← sub_eq_add_neg]; exact h2)
    rw [← h3, neg_neg]
  · intro h i
    induction i with
    | zero =>
      intro _
      rw [hval]
      intro m
      simp [sumT, Cell.flat]
      intro _
      rfl
    | succ i ih =>
      intro hi
      have h1 := (hval i).1 (ih (by omega))
      rw [hval]
      intro m
      rw [hsucc, h1 m, hflat, (wrap_any_iff c hc _ _ _ _).2 (h i hi m), sub_neg_eq_add]

/-- A cell that has grown from 4 to 5: a molecule moving from 3/2 to 3, stored as -2, is not followed,
since its stored step differs by 5, which is no vector of the lattice of the first cell. -/
example : ¬ (⟨4, 4, 1, 0, 0, 0, true⟩ : Cell).Lattice (-5, 0, 0) := by
  rintro ⟨i, j, k, h⟩
  simp [Cell.comb] at h
  obtain ⟨h1, h2⟩ := h
  have : (i : ℝ) * 4 = -5 := by linarith
  have h3 : i * 4 = -5 := by exact_mod_cast this
  omega

/-- **C29, exactly.**  The tracked displacement is the true one after every one of the frames `0, …, n`
if and only if no molecule ever moves by more than half the cell in a direction of the lattice from one
frame to the next (by exactly half of it only forwards). -/
theorem C29_exactly (c : Cell) (hc : c.Proper) (b : Box)
    (hb : createFreudBox c.array c.is2D = .ok b) {N : ℕ} (hN : 0 < N)
    (u s : ℕ → Fin N → V3) (o : ℕ → Option (Fin N → Quat)) (ho : Unit o) (n : ℕ)
    (hs : ∀ i ≤ n, ∀ m, c.Lattice (c.flat (s i m - u i m))) :
    (∀ i ≤ n, ∃ T, track b (frame s o 0) (frames s o 1 (i + 1)) = .ok T ∧
      T.deltaT = List.ofFn (fun m => c.flat (u i m - u 0 m))) ↔
    ∀ i < n, ∀ m, c.Central (c.flat (u (i + 1) m - u i m)) := by
  rw [C95_exactly c hc b hb hN u s o ho n]
  refine forall_congr' fun i => forall_congr' fun hi => forall_congr' fun m => ?_
  refine and_iff_right ?_
  have e : c.flat ((s (i + 1) m - s i m) - (u (i + 1) m - u i m)) =
      c.flat (s (i + 1) m - u (i + 1) m) - c.flat (s i m - u i m) := by
    rw [← flat_sub]
    congr 1
    abel
  rw [e]
  exact (hs (i + 1) hi m).sub (hs i hi.le m)

/-- A molecule that moves by exactly half a cell: followed forwards, not backwards. -/
example : (⟨4, 4, 1, 0, 0, 0, true⟩ : Cell).Central (2, 0, 0) ∧
    ¬ (⟨4, 4, 1, 0, 0, 0, true⟩ : Cell).Central (-2, 0, 0) := by
  constructor
  · exact ⟨1 / 2, 0, 0, by norm_num, by norm_num, by norm_num, by simp [Cell.comb]; norm_num⟩
  · rintro ⟨α, β, γ, ha, -, -, h⟩
    simp [Cell.comb] at h
    obtain ⟨h1, h2⟩ := h
    have : α = -(1 / 2) := by linarith
    linarith [ha.1]

/-- The angle about z of a turn, exactly when it is at most half a turn. -/
theorem toEuler_zRot_iff (θ : ℝ) : toEuler (zRot θ) = (θ, 0, 0) ↔ -Real.pi < θ ∧ θ ≤ Real.pi := by
  have h1 : Real.cos (θ / 2) ^ 2 - Real.sin (θ / 2) ^ 2 = Real.cos θ := by
    rw [← Real.cos_two_mul']; congr 1; ring
  have h2 : 2 * (Real.cos (θ / 2) * Real.sin (θ / 2)) = Real.sin θ := by
    rw [← mul_assoc, mul_right_comm, ← Real.sin_two_mul]; congr 1; ring
  have h4 : arctan2 0 1 = 0 := by
    unfold arctan2
    exact Complex.arg_one
  have he : toEuler (zRot θ) = (arctan2 (Real.sin θ) (Real.cos θ), 0, 0) := by
    unfold toEuler zRot
    simp [h1, h2, h4]
  rw [he]
  constructor
  · intro h
    have h5 : arctan2 (Real.sin θ) (Real.cos θ) = θ := congrArg Prod.fst h
    unfold arctan2 at h5
    rw [← h5]
    exact ⟨Complex.neg_pi_lt_arg _, Complex.arg_le_pi _⟩
  · intro h
    have h3 : arctan2 (Real.sin θ) (Real.cos θ) = θ := by
      unfold arctan2
      have : (⟨Real.cos θ, Real.sin θ⟩ : ℂ) = Complex.cos θ + Complex.sin θ * Complex.I := by
        apply Complex.ext <;> simp [Complex.cos_ofReal_re, Complex.sin_ofReal_re]
      rw [this, Complex.arg_cos_add_sin_mul_I ⟨h.1, h.2⟩]
    rw [h3]

/-- **C31, exactly.**  For molecules turning about z the tracked rotation is the whole turning angle
after every one of the frames `0, …, n` if and only if no molecule ever turns by more than half a turn
from one frame to the next (by exactly half a turn only in the positive sense). -/
theorem C31_exactly (b : Box) {N : ℕ} (hN : 0 < N) (s : ℕ → Fin N → V3) (θ : ℕ → Fin N → ℝ)
    (σ : ℕ → Fin N → ℝ) (hσ : ∀ i m, σ i m = 1 ∨ σ i m = -1)
    (o : ℕ → Option (Fin N → Quat)) (ho : ∀ i, o i = some (fun m => σ i m • zRot (θ i m))) (n : ℕ) :
    (∀ i ≤ n, ∃ T, track b (frame s o 0) (frames s o 1 (i + 1)) = .ok T ∧
      T.deltaR = List.ofFn (fun m => (θ i m - θ 0 m, 0, 0))) ↔
    ∀ i < n, ∀ m, -Real.pi < θ (i + 1) m - θ i m ∧ θ (i + 1) m - θ i m ≤ Real.pi := by
  have neg : ∀ q : Quat, (-1 : ℝ) • q = -q := fun q => neg_one_smul ℝ q
  have hunit : Unit o := by
    intro i q hq m
    rw [ho] at hq
    obtain rfl := Option.some.inj hq
    rcases hσ i m with h | h <;> simp [h, neg, normSq_zRot]
  have hinc : ∀ i m, rotInc (o i) (o (i + 1)) m = toEuler (zRot (θ (i + 1) m - θ i m)) := by
    intro i m
    rw [ho, ho]
    have : zRot (θ (i + 1) m) * (zRot (θ i m))⁻¹ = zRot (θ (i + 1) m - θ i m) := by
      rw [zRot_inv, zRot_mul, ← sub_eq_add_neg]
    have e1 : ∀ q : Quat, (-q)⁻¹ = -q⁻¹ := fun q => by
      rw [Quaternion.inv_def, Quaternion.inv_def, normSq_neg, star_neg, smul_neg]
    have e2 : ∀ p q : Quat, p * -q = -(p * q) := fun p q => mul_neg p q
    have e3 : ∀ p q : Quat, -p * q = -(p * q) := fun p q => neg_mul p q
    rcases hσ i m with h | h <;> rcases hσ (i + 1) m with h' | h' <;>
      simp only [rotInc, h, h', neg, e1, e2, e3, toEuler_neg, one_smul, neg_neg, this]
  have hval : ∀ i, (∃ T, track b (frame s o 0) (frames s o 1 (i + 1)) = .ok T ∧
      T.deltaR = List.ofFn (fun m => (θ i m - θ 0 m, 0, 0))) ↔
      ∀ m, sumR o i m = (θ i m - θ 0 m, 0, 0) := by
    intro i
    rw [track_closed hN b s o hunit i]
    constructor
    · rintro ⟨T, hT, h⟩ m
      obtain rfl := Except.ok.inj hT
      exact congrFun (List.ofFn_injective h) m
    · intro h
      exact ⟨_, rfl, congrArg List.ofFn (funext h)⟩
  have hsucc : ∀ i m, sumR o (i + 1) m = sumR o i m + toEuler (zRot (θ (i + 1) m - θ i m)) := by
    intro i m
    unfold sumR
    rw [Finset.sum_range_succ, hinc]
  have hsum : ∀ i m, ((θ (i + 1) m - θ 0 m, 0, 0) : V3) =
      (θ i m - θ 0 m, 0, 0) + (θ (i + 1) m - θ i m, 0, 0) := by
    intro i m
    simp
  constructor
  · intro h i hi m
    have h1 := (hval i).1 (h i hi.le) m
    have h2 := (hval (i + 1)).1 (h (i + 1) hi) m
    rw [hsucc, h1, hsum] at h2
    exact (toEuler_zRot_iff _).1 (add_left_cancel h2)
  · intro h i
    induction i with
    | zero =>
      intro _
      rw [hval]
      intro m
      simp [sumR]
      rfl
    | succ i ih =>
      intro hi
      have h1 := (hval i).1 (ih (by omega))
      rw [hval]
      intro m
      rw [hsucc, h1 m, hsum, (toEuler_zRot_iff _).2 (h i hi m)]

/-- Half a turn forwards and back: the way back is counted as a further half turn forwards. -/
example : toEuler (zRot Real.pi) = (Real.pi, 0, 0) ∧ toEuler (zRot (-Real.pi)) ≠ (-Real.pi, 0, 0) := by
  have := Real.pi_pos
  refine ⟨(toEuler_zRot_iff _).2 ⟨by linarith, le_rfl⟩, fun h => ?_⟩
  exact lt_irrefl _ ((toEuler_zRot_iff _).1 h).1

end Verif.Motion
