import Mathlib.Tactic.NormNum
import Verif.Dynamics.RunLemmas
/-!
# C39, C40: particle positions and the structural relaxation "struct"
-/

namespace Verif.Dynamics

open Verif.Motion Quaternion

/-- **C39**, first half.  Row `p * N + m` of `orientation2positions` is the position of molecule `m`
plus the body vector `p` turned by the orientation of molecule `m`. -/
theorem C39_orientation2positions {K N : ℕ} (hK : 0 < K) (pos : Fin N → V3) (q : Fin N → Quat)
    (hq : ∀ m, normSq (q m) = 1) (v : Fin K → V3) :
    ∃ l, orientation2positions K (List.ofFn v) (List.ofFn pos) (List.ofFn q) = .ok l ∧
      l.length = K * N ∧
      ∀ (p : Fin K) (m : Fin N), l[p.val * N + m.val]? = some (pos m + turned (q m) (v p)) := by
  refine ⟨_, orientation2positions_ofFn hK pos q hq v, by simp, fun p m => ?_⟩
  have h : finProdFinEquiv.symm (finProdFinEquiv (p, m)) = (p, m) := Equiv.symm_apply_apply _ _
  rw [finProdFinEquiv_symm_apply, Prod.mk.injEq] at h
  have e : (finProdFinEquiv (p, m)).val = p.val * N + m.val := by
    rw [finProdFinEquiv_apply_val, Nat.mul_comm N, Nat.add_comm]
  have hlt : p.val * N + m.val < K * N := e ▸ (finProdFinEquiv (p, m)).isLt
  rw [List.getElem?_eq_getElem (by simpa using hlt), List.getElem_ofFn]
  have e' : (⟨p.val * N + m.val, hlt⟩ : Fin (K * N)) = finProdFinEquiv (p, m) := Fin.ext e.symm
  simp only [e', h.1, h.2]

/-- Two molecules with two particles, one of them turned. -/
example : ∃ (q : Fin 2 → Quat), (∀ m, normSq (q m) = 1) ∧ q 0 ≠ q 1 := by
  refine ⟨fun m => if m = 0 then 1 else -1, fun m => ?_, ?_⟩
  · by_cases h : m = 0 <;> simp [h]
  · intro h
    have := congrArg (fun q : Quat => q.re) h
    norm_num at this

/-- What "struct" is meant to be: the proportion of particles `(m, p)` that stayed closer than
`dist`, when molecule `m` moved by `d m` and was turned as given by `turn m`. -/
noncomputable def structWanted {N K : ℕ} (d : Fin N → V3) (turn : Fin N → V3 → V3)
    (v : Fin K → V3) (dist : ℝ) : ℝ :=
  stayed (fun m p => turn m (v p) + d m - v p) dist

/-- A state of `Dynamics` with displacements `d`, rotations `r`, body vectors `v` and wave number
`k`, as it is reached for a given distance. -/
structure InState {N K : ℕ} (D : Dyn) (d r : Fin N → V3) (v : Fin K → V3) (k : ℝ) : Prop where
  hd : D.motion.deltaT = List.ofFn d
  hr : D.motion.deltaR = List.ofFn r
  hv : D.molVector = some (List.ofFn v)
  hn : D.numParticles = N
  hk : D.waveNumber = some k

/-- There is such a state for any displacements, rotations and vectors. -/
theorem inState_exists {N K : ℕ} (d r : Fin N → V3) (v : Fin K → V3) (k : ℝ) :
    ∃ D : Dyn, InState D d r v k :=
  ⟨{ timestep := 0, motion := ⟨⟨0, 0, 0, 0, 0, 0, true⟩, List.ofFn d, List.ofFn r, [], none⟩,
     numParticles := N, molVector := some (List.ofFn v), waveNumber := some k, waveVector := none },
   rfl, rfl, rfl, rfl, rfl⟩

theorem InState.distance {N K : ℕ} {D : Dyn} {d r : Fin N → V3} {v : Fin K → V3} {k : ℝ}
    (h : InState D d r v k) (hk : k ≠ 0) : D.distance = .ok (some (Real.pi / (2 * k))) := by
  unfold Dyn.distance
  rw [h.hk]
  simp [hk]

open Classical in
theorem structRelax_wanted {N K : ℕ} (hK : 0 < K) (hN : 0 < N) {D : Dyn} {d r : Fin N → V3}
    {v : Fin K → V3} {k : ℝ} (h : InState D d r v k) (hk : k ≠ 0)
    (hpair : ∀ n : Fin (K * N), d (repeatIx n) = d n.modNat) :
    D.structRelax = .ok (structWanted d (fun m => turned (structQuat (r m))) v
      (Real.pi / (2 * k))) := by
  rw [structRelax_ofFn hK hN D d r h.hd h.hr v h.hv h.hn _ (h.distance hk)]
  congr 1
  unfold structWanted stayed
  rw [mul_comm (K : ℝ)]
  congr 2
  refine Finset.card_bij' (fun (n : Fin (K * N)) _ => ((n.modNat, n.divNat) : Fin N × Fin K))
    (fun (a : Fin N × Fin K) _ => finProdFinEquiv (a.2, a.1)) ?_ ?_ ?_ ?_
  · intro n hn
    simp only [Finset.mem_filter, Finset.mem_univ, true_and] at hn ⊢
    rw [← hpair n]
    exact hn
  · intro a ha
    simp only [Finset.mem_filter, Finset.mem_univ, true_and] at ha ⊢
    have h : finProdFinEquiv.symm (finProdFinEquiv (a.2, a.1)) = (a.2, a.1) :=
      Equiv.symm_apply_apply _ _
    rw [finProdFinEquiv_symm_apply, Prod.mk.injEq] at h
    rw [hpair, h.1, h.2]
    exact ha
  · intro n _
    simp only
    exact Equiv.apply_symm_apply finProdFinEquiv n
  · intro a _
    have h : finProdFinEquiv.symm (finProdFinEquiv (a.2, a.1)) = (a.2, a.1) :=
      Equiv.symm_apply_apply _ _
    rw [finProdFinEquiv_symm_apply, Prod.mk.injEq] at h
    simp only [h.1, h.2]

/-- **C39**, second half, partial: when there is one molecule, or one particle per molecule, "struct"
combines the displacement and the rotation of the same molecule.  Missing: several molecules of
several particles, where it does not (`C39_struct_refuted`). -/
theorem C39_struct_partial {N K : ℕ} (hK : 0 < K) (hN : 0 < N) (h1 : N = 1 ∨ K = 1) {D : Dyn}
    {d r : Fin N → V3} {v : Fin K → V3} {k : ℝ} (h : InState D d r v k) (hk : k ≠ 0) :
    D.structRelax = .ok (structWanted d (fun m => turned (structQuat (r m))) v
      (Real.pi / (2 * k))) := by
  apply structRelax_wanted hK hN h hk
  intro n
  congr 1
  rcases h1 with rfl | rfl
  · exact Subsingleton.elim _ _
  · apply Fin.ext
    have := n.isLt
    simp only [repeatIx, Fin.modNat, Nat.div_one]
    rw [Nat.mod_eq_of_lt (by omega)]

/-- Three molecules of one particle each, with displacements and rotations that differ. -/
example : ∃ D : Dyn, InState D (fun m : Fin 3 => ((m : ℝ), 0, 0)) (fun m => (0, 0, (m : ℝ)))
    (fun _ : Fin 1 => (1, 0, 0)) 2 ∧
    D.structRelax = .ok (structWanted (fun m : Fin 3 => ((m : ℝ), 0, 0))
      (fun m => turned (structQuat (0, 0, (m : ℝ)))) (fun _ : Fin 1 => (1, 0, 0)) (Real.pi / (2 * 2))) := by
  obtain ⟨D, hD⟩ := inState_exists (N := 3) (K := 1) (fun m : Fin 3 => ((m : ℝ), 0, 0)) (fun m => (0, 0, (m : ℝ)))
    (fun _ : Fin 1 => (1, 0, 0)) 2
  exact ⟨D, hD, C39_struct_partial one_pos (by norm_num) (Or.inr rfl) hD (by norm_num)⟩

/-- It also does when all molecules moved alike. -/
theorem C39_struct_uniform {N K : ℕ} (hK : 0 < K) (hN : 0 < N) {D : Dyn}
    {r : Fin N → V3} {v : Fin K → V3} {k : ℝ} (w : V3) (h : InState D (fun _ => w) r v k)
    (hk : k ≠ 0) :
    D.structRelax = .ok (structWanted (fun _ => w) (fun m => turned (structQuat (r m))) v
      (Real.pi / (2 * k))) :=
  structRelax_wanted hK hN h hk (fun _ => rfl)

/-- Two molecules of two particles that move together and turn by different angles. -/
example : ∃ D : Dyn, D.structRelax = .ok (structWanted (fun _ : Fin 2 => (1, 0, 0))
      (fun m => turned (structQuat (0, 0, (m : ℝ)))) (fun p : Fin 2 => ((p : ℝ), 0, 0)) (Real.pi / (2 * 2))) := by
  obtain ⟨D, hD⟩ := inState_exists (N := 2) (K := 2) (fun _ : Fin 2 => (1, 0, 0)) (fun m => (0, 0, (m : ℝ)))
    (fun p : Fin 2 => ((p : ℝ), 0, 0)) 2
  exact ⟨D, C39_struct_uniform two_pos two_pos _ hD (by norm_num)⟩

/-! ## The rotation that is applied -/

theorem structQuat_x (φ : ℝ) (v : V3) : turned (structQuat (φ, 0, 0)) v = turnedX φ v := by
  have hq : structQuat (φ, 0, 0) = qx φ := by
    have h1 : qz 0 = 1 := by unfold qz; ext <;> simp
    have h2 : qy 0 = 1 := by unfold qy; ext <;> simp
    unfold structQuat fromEuler
    simp only [h1, h2, one_mul]
  have h1 : Real.cos (φ / 2) ^ 2 - Real.sin (φ / 2) ^ 2 = Real.cos φ := by
    rw [← Real.cos_two_mul']; congr 1; ring
  have h2 : 2 * (Real.cos (φ / 2) * Real.sin (φ / 2)) = Real.sin φ := by
    rw [← mul_assoc, mul_right_comm, ← Real.sin_two_mul]; congr 1; ring
  have h3 : Real.cos (φ / 2) ^ 2 + Real.sin (φ / 2) ^ 2 = 1 := Real.cos_sq_add_sin_sq _
  have e0 : (qx φ).re = Real.cos (φ / 2) := rfl
  have e1 : (qx φ).imI = Real.sin (φ / 2) := rfl
  have e2 : (qx φ).imJ = 0 := rfl
  have e3 : (qx φ).imK = 0 := rfl
  rw [hq]
  unfold turned turnedX
  simp only [e0, e1, e2, e3]
  refine Prod.ext ?_ (Prod.ext ?_ ?_) <;> simp only
  · linear_combination v.1 * h3
  · linear_combination v.2.1 * h1 - v.2.2 * h2
  · linear_combination v.2.2 * h1 + v.2.1 * h2

/-- A trajectory in two dimensions: `u i m` are the positions and `θ i m` the angles of molecule `m`
in frame `i`, with steps shorter than half the cell and half a turn; `D` is the object after frame
`n`. -/
structure Plane {N K : ℕ} (D : Dyn) (c : Cell) (k : ℝ) (v : Fin K → V3) (u : ℕ → Fin N → V3)
    (θ : ℕ → Fin N → ℝ) (n : ℕ) : Prop where
  cell : c.Proper ∧ c.is2D = true
  flat : ∀ i m, (u i m).2.2 = 0
  stepT : ∀ i < n, ∀ m, c.WithinHalf (u (i + 1) m - u i m)
  stepR : ∀ i < n, ∀ m, |θ (i + 1) m - θ i m| < Real.pi
  obj : ∃ (res : ℕ) (t0 : ℤ),
    (match Dyn.new t0 c.array (List.ofFn (u 0)) (some (List.ofFn (fun m => zRot (θ 0 m))))
        (some ⟨2, List.ofFn v⟩) (some k) res with
      | .ok d => addFrames d (frames u (fun i => some (fun m => zRot (θ i m))) 1 (n + 1))
      | .error e => .error e) = .ok D

theorem Plane.inState {N K : ℕ} (hN : 0 < N) {D : Dyn} {c : Cell} {k : ℝ} {v : Fin K → V3}
    {u : ℕ → Fin N → V3} {θ : ℕ → Fin N → ℝ} {n : ℕ} (h : Plane D c k v u θ n) :
    InState D (fun m => u n m - u 0 m) (fun m => (θ n m - θ 0 m, 0, 0)) v k := by
  obtain ⟨⟨hc, h2d⟩, hflat, hT, hR, res, t0, hD⟩ := h
  set o : ℕ → Option (Fin N → Quat) := fun i => some (fun m => zRot (θ i m)) with ho
  have hunit : Unit o := by
    intro i q hq m
    obtain rfl := Option.some.inj hq
    exact normSq_zRot _
  have hb : createFreudBox c.array (is2d (some ⟨2, List.ofFn v⟩)) = .ok c.box := by
    have : is2d (some ⟨2, List.ofFn v⟩) = c.is2D := by rw [h2d]; rfl
    rw [this]
    exact createFreudBox_cell c
  have hrun := new_track hN hb (some k) res t0 u o hunit n
  have hD' : D = dynAfter c.box (some ⟨2, List.ofFn v⟩) (some k) res t0 u o n := by
    have := hD.symm.trans hrun
    exact Except.ok.inj this
  subst hD'
  have hfl : ∀ i j m, c.flat (u i m - u j m) = u i m - u j m := by
    intro i j m
    unfold Cell.flat
    rw [h2d]
    simp [Prod.ext_iff, hflat]
  refine ⟨?_, ?_, rfl, rfl, rfl⟩
  · change List.ofFn _ = _
    congr 1
    funext m
    rw [sumT_unwrapped c hc u u m n (fun i _ => ?_) (fun i hi => ?_), hfl]
    · rw [sub_self]
      have : c.flat 0 = 0 := by unfold Cell.flat; split <;> rfl
      rw [this]
      exact .zero c
    · rw [hfl]; exact hT i hi m
  · change List.ofFn _ = _
    congr 1
    funext m
    have hinc : ∀ i < n, rotInc (o i) (o (i + 1)) m = (θ (i + 1) m - θ i m, 0, 0) := by
      intro i hi
      simp only [ho, rotInc]
      rw [zRot_inv, zRot_mul, ← sub_eq_add_neg]
      exact toEuler_zRot _ (hR i hi m)
    clear hR hT hrun hD
    induction n with
    | zero => simp [sumR]; rfl
    | succ n ih =>
      have := ih (fun i hi => hinc i (by omega))
      unfold sumR at this ⊢
      rw [Finset.sum_range_succ, this, hinc n (by omega)]
      simp

/-- **C40**, partial.  What "struct" compares for molecules that turned in the plane by the angle
`φ`, when its other defect (`C39`) plays no part: particles rotated by `φ` about the *x* axis.  That
is right only for molecules that did not turn (or are linear along y and turned by half a turn).
Missing: the rotation about z, which is refuted by `C40_struct_refuted`. -/
theorem C40_struct_partial {N K : ℕ} (hK : 0 < K) (hN : 0 < N) (h1 : N = 1 ∨ K = 1) {D : Dyn}
    {c : Cell} {k : ℝ} (hk : k ≠ 0) {v : Fin K → V3} {u : ℕ → Fin N → V3} {θ : ℕ → Fin N → ℝ}
    {n : ℕ} (h : Plane D c k v u θ n) :
    D.structRelax = .ok (structWanted (fun m => u n m - u 0 m)
      (fun m => turnedX (θ n m - θ 0 m)) v (Real.pi / (2 * k))) ∧
    ((∀ m, θ n m = θ 0 m) → D.structRelax = .ok (structWanted (fun m => u n m - u 0 m)
      (fun m => turnedZ (θ n m - θ 0 m)) v (Real.pi / (2 * k)))) := by
  have key : D.structRelax = .ok (structWanted (fun m => u n m - u 0 m)
      (fun m => turnedX (θ n m - θ 0 m)) v (Real.pi / (2 * k))) := by
    rw [C39_struct_partial hK hN h1 (h.inState hN) hk]
    unfold structWanted
    simp only [structQuat_x]
  refine ⟨key, fun h0 => ?_⟩
  rw [key]
  unfold structWanted
  simp [h0, turnedX, turnedZ]

theorem len_lt_one (v : V3) : len v < 1 ↔ len2 v < 1 := by
  unfold len
  rw [Real.sqrt_lt' one_pos]
  norm_num

theorem plane_exists {N K : ℕ} (hN : 0 < N) (c : Cell) (hc : c.Proper) (h2d : c.is2D = true)
    (k : ℝ) (v : Fin K → V3) (u : ℕ → Fin N → V3) (θ : ℕ → Fin N → ℝ) (n : ℕ)
    (flat : ∀ i m, (u i m).2.2 = 0)
    (stepT : ∀ i < n, ∀ m, c.WithinHalf (u (i + 1) m - u i m))
    (stepR : ∀ i < n, ∀ m, |θ (i + 1) m - θ i m| < Real.pi) :
    ∃ D, Plane D c k v u θ n := by
  have hunit : Unit (fun i => some (fun m : Fin N => zRot (θ i m))) := by
    intro i q hq m
    obtain rfl := Option.some.inj hq
    exact normSq_zRot _
  have hb : createFreudBox c.array (is2d (some ⟨2, List.ofFn v⟩)) = .ok c.box := by
    have : is2d (some ⟨2, List.ofFn v⟩) = c.is2D := by rw [h2d]; rfl
    rw [this]
    exact createFreudBox_cell c
  exact ⟨_, ⟨hc, h2d⟩, flat, stepT, stepR, 360, 0, new_track hN hb (some k) 360 0 u _ hunit n⟩

/-- The hypotheses of `C40_struct_partial` are met by one molecule of two particles that makes a radian in each
of three frames. -/
example : ∃ (D : Dyn) (c : Cell), Plane D c 2 (fun p : Fin 2 => ((p : ℝ), 0, 0)) (fun _ (_ : Fin 1) => 0)
    (fun i _ => (i : ℝ)) 3 ∧
    D.structRelax = .ok (structWanted (fun _ : Fin 1 => (0 : V3) - 0)
      (fun _ => turnedX (((3 : ℕ) : ℝ) - ((0 : ℕ) : ℝ))) (fun p : Fin 2 => ((p : ℝ), 0, 0)) (Real.pi / (2 * 2))) := by
  obtain ⟨D, hD⟩ := plane_exists (N := 1) one_pos ⟨10, 10, 1, 0, 0, 0, true⟩ (by simp [Cell.Proper]) rfl 2
    (fun p : Fin 2 => ((p : ℝ), 0, 0)) (fun _ _ => 0) (fun i _ => (i : ℝ)) 3 (fun _ _ => rfl)
    (fun i _ m => ⟨0, 0, 0, by simp, by simp, by simp, by simp [comb_zero]⟩)
    (fun i _ m => by
      push_cast
      rw [show (i : ℝ) + 1 - i = 1 by ring, abs_one]
      linarith [Real.two_le_pi])
  exact ⟨D, _, hD, (C40_struct_partial two_pos one_pos (Or.inl rfl) (by norm_num) hD).1⟩

/-- **C40** is false: a molecule with one particle, on its x axis, makes a quarter turn.  The particle
moved by more than the distance 1, yet "struct" is 1, as if it had not moved. -/
theorem C40_struct_refuted : ∃ (D : Dyn) (c : Cell) (v : Fin 1 → V3) (u : ℕ → Fin 1 → V3)
    (θ : ℕ → Fin 1 → ℝ), Plane D c (Real.pi / 2) v u θ 1 ∧ D.structRelax = .ok 1 ∧
      structWanted (fun m => u 1 m - u 0 m) (fun m => turnedZ (θ 1 m - θ 0 m)) v
        (Real.pi / (2 * (Real.pi / 2))) = 0 := by
  have hpi := Real.pi_pos
  let c : Cell := ⟨10, 10, 1, 0, 0, 0, true⟩
  let θ : ℕ → Fin 1 → ℝ := fun i _ => i * (Real.pi / 2)
  obtain ⟨D, hD⟩ := plane_exists (N := 1) one_pos c (by simp [c, Cell.Proper]) rfl (Real.pi / 2)
    (fun _ : Fin 1 => (1, 0, 0)) (fun _ _ => 0) θ 1 (fun _ _ => rfl)
    (fun i _ m => ⟨0, 0, 0, by simp, by simp, by simp, by simp [comb_zero]⟩)
    (fun i _ m => by
      simp only [θ]
      push_cast
      rw [show ((i : ℝ) + 1) * (Real.pi / 2) - i * (Real.pi / 2) = Real.pi / 2 by ring, abs_lt]
      constructor <;> linarith)
  have hdist : Real.pi / (2 * (Real.pi / 2)) = 1 := by field_simp
  refine ⟨D, c, _, _, θ, hD, ?_, ?_⟩
  · rw [(C40_struct_partial one_pos one_pos (Or.inl rfl) (by positivity) hD).1, hdist]
    congr 1
    simp [structWanted, stayed, len_lt_one, turnedX, len2]
  · rw [hdist]
    simp [structWanted, stayed, len_lt_one, turnedZ, len2, θ]

/-- **C39**, second half, is false: of two molecules with two particles each, one moves by 2 along y
and makes half a turn.  Only one particle moved by the distance 1 or more (the other one went around
the centre and ended where it was), so "struct" should be 3/4; it is 1/2. -/
theorem C39_struct_refuted : ∃ (D : Dyn) (c : Cell) (v : Fin 2 → V3) (u : ℕ → Fin 2 → V3)
    (θ : ℕ → Fin 2 → ℝ), Plane D c (Real.pi / 2) v u θ 2 ∧ D.structRelax = .ok (1 / 2) ∧
      structWanted (fun m => u 2 m - u 0 m) (fun m => turnedZ (θ 2 m - θ 0 m)) v
        (Real.pi / (2 * (Real.pi / 2))) = 3 / 4 := by
  classical
  have hpi := Real.pi_pos
  let c : Cell := ⟨10, 10, 1, 0, 0, 0, true⟩
  let θ : ℕ → Fin 2 → ℝ := fun i m => if m = 1 then i * (Real.pi / 2) else 0
  let u : ℕ → Fin 2 → V3 := fun i m => if m = 1 then (0, i, 0) else 0
  let v : Fin 2 → V3 := fun p => if p = 0 then (0, -1, 0) else (0, 1, 0)
  obtain ⟨D, hD⟩ := plane_exists (N := 2) two_pos c (by simp [c, Cell.Proper]) rfl (Real.pi / 2)
    v u θ 2 (fun i m => by by_cases h : m = 1 <;> simp [u, h])
    (fun i _ m => by
      by_cases h : m = 1
      · refine ⟨0, 1 / 10, 0, by simp, by rw [abs_lt]; constructor <;> norm_num, by simp, ?_⟩
        simp [u, h, c, Cell.comb]
      · exact ⟨0, 0, 0, by simp, by simp, by simp, by simp [u, h, comb_zero]⟩)
    (fun i _ m => by
      by_cases h : m = 1
      · simp only [θ, h, if_true]
        push_cast
        rw [show ((i : ℝ) + 1) * (Real.pi / 2) - i * (Real.pi / 2) = Real.pi / 2 by ring, abs_lt]
        constructor <;> linarith
      · simp [θ, h, hpi])
  have hdist : Real.pi / (2 * (Real.pi / 2)) = 1 := by field_simp
  have h2 : 2 * (Real.pi / 2) = Real.pi := by ring
  have hst := hD.inState two_pos
  refine ⟨D, c, v, u, θ, hD, ?_, ?_⟩
  · rw [structRelax_ofFn two_pos two_pos D _ _ hst.hd hst.hr v hst.hv hst.hn _
      (hst.distance (by positivity)), hdist]
    have : (Finset.univ.filter (fun n : Fin (2 * 2) =>
        len (turned (structQuat ((θ 2 n.modNat - θ 0 n.modNat, 0, 0))) (v n.divNat) +
          (u 2 (repeatIx n) - u 0 (repeatIx n)) - v n.divNat) < 1)) = {0, 3} := by
      ext n
      simp only [Finset.mem_filter, Finset.mem_univ, true_and, len_lt_one, structQuat_x]
      fin_cases n <;>
        simp [θ, u, v, turnedX, len2, Fin.modNat, Fin.divNat, repeatIx, h2] <;> norm_num
    rw [this, Finset.card_pair (by decide)]
    norm_num
  · rw [hdist]
    unfold structWanted stayed
    have : (Finset.univ.filter (fun a : Fin 2 × Fin 2 =>
        len (turnedZ (θ 2 a.1 - θ 0 a.1) (v a.2) + (u 2 a.1 - u 0 a.1) - v a.2) < 1)) =
          {(0, 0), (0, 1), (1, 1)} := by
      ext a
      obtain ⟨m, p⟩ := a
      simp only [Finset.mem_filter, Finset.mem_univ, true_and, len_lt_one]
      fin_cases m <;> fin_cases p <;>
        simp [θ, u, v, turnedZ, len2, h2] <;> norm_num
    rw [this]
    norm_num

end Verif.Dynamics
