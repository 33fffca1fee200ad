import Verif.Dynamics.Particles
/-!
# Exactly which particles "struct" compares: C39 and C40
-/

namespace Verif.Dynamics

open Verif.Motion

/-- The row of particle `p` of molecule `m` among the particles is `p * N + m`; `np.repeat` puts there
the displacement of the molecule with this number. -/
theorem row_lt {N K : ℕ} (m : Fin N) (p : Fin K) : (p.val * N + m.val) / K < N := by
  apply Nat.div_lt_of_lt_mul
  have h1 : p.val + 1 ≤ K := p.isLt
  have h2 := m.isLt
  calc p.val * N + m.val < p.val * N + N := by omega
    _ = (p.val + 1) * N := by ring
    _ ≤ K * N := Nat.mul_le_mul_right _ h1

open Classical in
/-- **C39, what is compared.**  For any numbers of molecules and particles "struct" is the proportion of
the particles `(m, p)` that stay when they are turned with molecule `m` and moved with the molecule of
number `(p * N + m) / K`. -/
theorem C39_compared {N K : ℕ} (hK : 0 < K) (hN : 0 < N) {D : Dyn} {d r : Fin N → V3}
    {v : Fin K → V3} {k : ℝ} (h : InState D d r v k) (hk : k ≠ 0) :
    D.structRelax = .ok (stayed (fun (m : Fin N) (p : Fin K) =>
      turned (structQuat (r m)) (v p) + d ⟨(p.val * N + m.val) / K, row_lt m p⟩ - v p)
      (Real.pi / (2 * k))) := by
  rw [structRelax_ofFn hK hN D d r h.hd h.hr v h.hv h.hn _ (h.distance hk)]
  congr 1
  unfold stayed
  rw [mul_comm (K : ℝ)]
  congr 2
  have hval : ∀ n : Fin (K * N), n.divNat.val * N + n.modNat.val = n.val := by
    intro n
    simp only [Fin.divNat, Fin.modNat]
    rw [Nat.mul_comm]
    exact Nat.div_add_mod n.val N
  have hix : ∀ n : Fin (K * N), repeatIx n =
      ⟨(n.divNat.val * N + n.modNat.val) / K, row_lt n.modNat n.divNat⟩ := by
    intro n
    apply Fin.ext
    simp only [repeatIx]
    rw [hval]
  refine Finset.card_bij' (fun (n : Fin (K * N)) _ => ((n.modNat, n.divNat) : Fin N × Fin K))
    (fun (a : Fin N × Fin K) _ => finProdFinEquiv (a.2, a.1)) ?_ ?_ ?_ ?_
  · intro n hn
    simp only [Finset.mem_filter, Finset.mem_univ, true_and] at hn ⊢
    rw [← hix n]
    exact hn
  · intro a ha
    simp only [Finset.mem_filter, Finset.mem_univ, true_and] at ha ⊢
    have h : finProdFinEquiv.symm (finProdFinEquiv (a.2, a.1)) = (a.2, a.1) :=
      Equiv.symm_apply_apply _ _
    rw [finProdFinEquiv_symm_apply, Prod.mk.injEq] at h
    rw [hix]
    simp only [h.1, h.2]
    exact ha
  · intro n _
    simp only
    exact Equiv.apply_symm_apply finProdFinEquiv n
  · intro a _
    have h : finProdFinEquiv.symm (finProdFinEquiv (a.2, a.1)) = (a.2, a.1) :=
      Equiv.symm_apply_apply _ _
    rw [finProdFinEquiv_symm_apply, Prod.mk.injEq] at h
    simp only [h.1, h.2]

/-- Two molecules of three particles, with displacements and rotations that differ. -/
example : ∃ D : Dyn, InState D (fun m : Fin 2 => ((m : ℝ), 0, 0)) (fun m => (0, 0, (m : ℝ)))
    (fun p : Fin 3 => ((p : ℝ), 0, 0)) 2 ∧ (2 : ℝ) ≠ 0 := by
  obtain ⟨D, hD⟩ := inState_exists (N := 2) (K := 3) (fun m : Fin 2 => ((m : ℝ), 0, 0))
    (fun m => (0, 0, (m : ℝ))) (fun p : Fin 3 => ((p : ℝ), 0, 0)) 2
  exact ⟨D, hD, by norm_num⟩

/-- **C39, exactly.**  Every particle is moved with its own molecule if and only if molecules have one
particle, or all molecules moved alike. -/
theorem C39_exactly {N K : ℕ} (hK : 0 < K) (d : Fin N → V3) :
    (∀ (m : Fin N) (p : Fin K), d ⟨(p.val * N + m.val) / K, row_lt m p⟩ = d m) ↔
      (K = 1 ∨ ∀ m m', d m = d m') := by
  constructor
  · intro h
    rcases Nat.lt_or_ge 1 K with hK1 | hK1
    · right
      have key : ∀ (n : ℕ) (hn : n < N), d ⟨n, hn⟩ = d ⟨0, by omega⟩ := by
        intro n
        induction n using Nat.strong_induction_on with
        | _ n ih =>
          intro hn
          rcases Nat.eq_zero_or_pos n with rfl | hpos
          · rfl
          · have h0 := h ⟨n, hn⟩ ⟨0, hK⟩
            simp only [Nat.zero_mul, Nat.zero_add] at h0
            have hlt : n / K < n := Nat.div_lt_self hpos hK1
            rw [← h0]
            exact ih (n / K) hlt (by omega)
      intro m m'
      rw [key m.val m.isLt, key m'.val m'.isLt]
    · exact Or.inl (by omega)
  · rintro (rfl | h) m p
    · congr 1
      apply Fin.ext
      simp
    · exact h _ _

/-- Two molecules of three particles that moved differently: a particle moves with the wrong one. -/
example : ¬ ∀ (m : Fin 2) (p : Fin 3), (fun m : Fin 2 => ((m.val : ℝ), (0 : ℝ), (0 : ℝ)))
    ⟨(p.val * 2 + m.val) / 3, row_lt m p⟩ = (fun m : Fin 2 => ((m.val : ℝ), (0 : ℝ), (0 : ℝ))) m := by
  intro h
  rcases (C39_exactly (by norm_num) (fun m : Fin 2 => ((m.val : ℝ), (0 : ℝ), (0 : ℝ)))).1 h with h | h
  · omega
  · simpa using h 0 1

/-- A turn about x takes a vector of the plane where a turn about z takes it only without a turn, or at
the centre, or on the y axis after half a turn. -/
theorem turnedX_eq_turnedZ {φ : ℝ} {p : V3} (hp : p.2.2 = 0) :
    turnedX φ p = turnedZ φ p ↔
      (Real.cos φ = 1 ∨ p = 0 ∨ (p.1 = 0 ∧ Real.cos φ = -1)) := by
  obtain ⟨x, y, z⟩ := p
  simp only at hp
  subst hp
  have hsc := Real.sin_sq_add_cos_sq φ
  simp only [turnedX, turnedZ, Prod.mk.injEq, mul_zero, sub_zero, add_zero]
  constructor
  · rintro ⟨h1, h2, h3⟩
    have hx : Real.sin φ * x = 0 := by linarith
    by_cases hs : Real.sin φ = 0
    · rw [hs] at hsc h1
      have : Real.cos φ = 1 ∨ Real.cos φ = -1 := by
        have h0 : (Real.cos φ - 1) * (Real.cos φ + 1) = 0 := by linear_combination hsc
        rcases mul_eq_zero.1 h0 with h | h
        · exact Or.inl (by linarith)
        · exact Or.inr (by linarith)
      rcases this with h | h
      · exact Or.inl h
      · rw [h] at h1
        exact Or.inr (Or.inr ⟨by linarith, h⟩)
    · right; left
      rcases mul_eq_zero.1 hx with h | h
      · exact absurd h hs
      · rcases mul_eq_zero.1 h3 with h' | h'
        · exact absurd h' hs
        · rw [h, h']; rfl
  · rintro (h | h | ⟨h, h'⟩)
    · have hs : Real.sin φ = 0 := by
        rw [h] at hsc
        nlinarith [sq_nonneg (Real.sin φ)]
      simp [h, hs]
    · cases h; simp
    · have hs : Real.sin φ = 0 := by
        rw [h'] at hsc
        nlinarith [sq_nonneg (Real.sin φ)]
      simp [h, hs]

/-- **C40, exactly.**  For planar molecules that turned in the plane, every particle is taken to the
place it really went to if and only if each molecule has not turned (up to full turns), or has its
particles on its y axis and made half a turn, or has all of them in its centre; "struct" is then right
when its other defect plays no part. -/
theorem C40_exactly {N K : ℕ} (hK : 0 < K) (hN : 0 < N) (h1 : N = 1 ∨ K = 1) {D : Dyn}
    {c : Cell} {k : ℝ} (hk : k ≠ 0) {v : Fin K → V3} (hv : ∀ p, (v p).2.2 = 0) {u : ℕ → Fin N → V3}
    {θ : ℕ → Fin N → ℝ} {n : ℕ} (h : Plane D c k v u θ n) :
    ((∀ m p, turnedX (θ n m - θ 0 m) (v p) = turnedZ (θ n m - θ 0 m) (v p)) ↔
      ∀ m, Real.cos (θ n m - θ 0 m) = 1 ∨
        (Real.cos (θ n m - θ 0 m) = -1 ∧ ∀ p, (v p).1 = 0) ∨ ∀ p, v p = 0) ∧
    ((∀ m p, turnedX (θ n m - θ 0 m) (v p) = turnedZ (θ n m - θ 0 m) (v p)) →
      D.structRelax = .ok (structWanted (fun m => u n m - u 0 m)
        (fun m => turnedZ (θ n m - θ 0 m)) v (Real.pi / (2 * k)))) := by
  refine ⟨forall_congr' fun m => ?_, fun h0 => ?_⟩
  · constructor
    · intro hp
      by_cases hc : Real.cos (θ n m - θ 0 m) = 1
      · exact Or.inl hc
      · right
        by_cases hc' : Real.cos (θ n m - θ 0 m) = -1
        · left
          refine ⟨hc', fun p => ?_⟩
          rcases (turnedX_eq_turnedZ (hv p)).1 (hp p) with h | h | h
          · exact absurd h hc
          · rw [h]; rfl
          · exact h.1
        · right
          intro p
          rcases (turnedX_eq_turnedZ (hv p)).1 (hp p) with h | h | h
          · exact absurd h hc
          · exact h
          · exact absurd h.2 hc'
    · rintro (h | ⟨h, h'⟩ | h) p
      · exact (turnedX_eq_turnedZ (hv p)).2 (Or.inl h)
      · exact (turnedX_eq_turnedZ (hv p)).2 (Or.inr (Or.inr ⟨h' p, h⟩))
      · exact (turnedX_eq_turnedZ (hv p)).2 (Or.inr (Or.inl (h p)))
  · rw [(C40_struct_partial hK hN h1 hk h).1]
    unfold structWanted
    simp only [h0]

/-- A quarter turn moves a particle on the x axis elsewhere than the code puts it. -/
example : turnedX (Real.pi / 2) (1, 0, 0) ≠ turnedZ (Real.pi / 2) (1, 0, 0) := by
  rw [Ne, turnedX_eq_turnedZ rfl]
  simp

end Verif.Dynamics
