import Verif.Dynamics.AxesSpec
import Verif.Dynamics.RunLemmas
import Verif.Dynamics.Particles
/-!
# Lemmas for the choice of axes and the direction of time
-/

namespace Verif.Dynamics

open Verif.Motion Quaternion

/-! ## Rows -/

/-- Objects with the same lengths and the same scattering function have the same row but for
"struct". -/
theorem row_same {D D' : Dyn} {N : ℕ} {d d' r r' : Fin N → V3}
    (hd : D.motion.deltaT = List.ofFn d) (hd' : D'.motion.deltaT = List.ofFn d')
    (hr : D.motion.deltaR = List.ofFn r) (hr' : D'.motion.deltaR = List.ofFn r')
    (hl : ∀ m, len2 (d' m) = len2 (d m)) (hlr : ∀ m, len2 (r' m) = len2 (r m))
    (ht : D'.timestep = D.timestep) (hk : D'.waveNumber = D.waveNumber) {sc : Bool}
    (hi : isfVal D' sc = isfVal D sc) {argsort : List ℝ → List ℕ} {t : ℤ}
    {row row' : Dict Quantity Val} (hrow : D.quantities argsort t sc = .ok row)
    (hrow' : D'.quantities argsort t sc = .ok row') (q : Quantity) (hq : q ≠ .struct) :
    Dict.get? row' q = Dict.get? row q := by
  have e1 : D'.displacement2 = D.displacement2 := by
    rw [displacement2_ofFn hd, displacement2_ofFn hd']
    simp only [hl]
  have e2 : D'.rotation2 = D.rotation2 := by
    rw [rotation2_ofFn hr, rotation2_ofFn hr']
    simp only [hlr]
  have e3 : D'.displacement = D.displacement := by
    rw [displacement_ofFn hd, displacement_ofFn hd']
    unfold len
    simp only [hl]
  have e4 : D'.rotation = D.rotation := by
    rw [rotation_ofFn hr, rotation_ofFn hr']
    unfold len
    simp only [hlr]
  obtain ⟨al, isf, distance, ar, ga, ov, st, ha, hi1, hdi, har, hg, ho, -, rfl⟩ := quantities_ok hrow
  obtain ⟨al', isf', distance', ar', ga', ov', st', ha', hi1', hdi', har', hg', ho', -, rfl⟩ :=
    quantities_ok hrow'
  have f1 : D'.alpha = D.alpha := by unfold Dyn.alpha; rw [e1]
  have f2 : D'.alphaRot = D.alphaRot := by unfold Dyn.alphaRot; rw [e2]
  have f3 : D'.gamma = D.gamma := by unfold Dyn.gamma; rw [e1, e2]
  have f4 : D'.distance = D.distance := by unfold Dyn.distance; rw [hk]
  rw [f1, ha] at ha'
  rw [f2, har] at har'
  rw [f3, hg] at hg'
  rw [f4, hdi] at hdi'
  rw [hi, hi1] at hi1'
  rw [e3, e4, ho] at ho'
  obtain rfl := Except.ok.inj ha'
  obtain rfl := Except.ok.inj har'
  obtain rfl := Except.ok.inj hg'
  obtain rfl := Except.ok.inj hdi'
  obtain rfl := Except.ok.inj hi1'
  obtain rfl := Except.ok.inj ho'
  have g1 : D'.timeDelta t = D.timeDelta t := by unfold Dyn.timeDelta; rw [ht]
  have g2 : D'.msd = D.msd := by unfold Dyn.msd; rw [e1]
  have g3 : D'.mfd = D.mfd := by unfold Dyn.mfd; rw [e1]
  have g4 : comVal D' distance = comVal D distance := by unfold comVal; rw [e3]
  have g5 : D'.meanRotation = D.meanRotation := by unfold Dyn.meanRotation; rw [e4]
  have g6 : D'.msr = D.msr := by unfold Dyn.msr; rw [e2]
  have g7 : D'.rot1 = D.rot1 := by unfold Dyn.rot1; rw [e4]
  have g8 : D'.rot2 = D.rot2 := by unfold Dyn.rot2; rw [e4]
  rw [g1, g2, g3, g4, g5, g6, g7, g8, e3]
  cases q <;> first | rfl | exact absurd rfl hq

/-! ## Wrapping -/

theorem wrap1_neg {t : ℝ} (h : ∀ k : ℤ, t ≠ k + 1 / 2) : wrap1 (-t) = -wrap1 t := by
  unfold wrap1
  have : ⌊-t + 1 / 2⌋ = -⌊t + 1 / 2⌋ := by
    rw [Int.floor_eq_iff]
    have h1 := Int.floor_le (t + 1 / 2)
    have h2 := Int.lt_floor_add_one (t + 1 / 2)
    have h3 := h (⌊t + 1 / 2⌋ - 1)
    push_cast at h3 ⊢
    constructor
    · linarith
    · have h4 : (⌊t + 1 / 2⌋ : ℝ) ≠ t + 1 / 2 := by
        intro e
        apply h3
        linarith
      have h5 := lt_of_le_of_ne h1 h4
      linarith
  rw [this]
  push_cast
  ring

theorem noTie_iff {c : Cell} (hc : c.Proper) (v : V3) : NoTie c v ↔
    ∀ k : ℤ, (c.box.frac v).1 ≠ k + 1 / 2 ∧ (c.box.frac v).2.1 ≠ k + 1 / 2 ∧
      (c.is2D = false → (c.box.frac v).2.2 ≠ k + 1 / 2) := by
  constructor
  · intro h
    apply h
    rw [← coord_frac c hc, coord_box]
  · intro h α β γ e k
    have := frac_comb c hc α β γ v e
    have hk := h k
    rw [this] at hk
    refine ⟨hk.1, hk.2.1, fun h2 => ?_⟩
    have := hk.2.2 h2
    simpa [h2] using this

theorem Flip.proper {g : Flip} {c : Cell} (hc : c.Proper) : (g.cell c).Proper := by
  obtain ⟨h1, h2, h3⟩ := hc
  cases g
  · exact ⟨h1, h2, h3⟩
  · exact ⟨h1, h2, h3⟩
  · exact ⟨h2, h1, h3⟩

theorem Flip.is2D (g : Flip) (c : Cell) : (g.cell c).is2D = c.is2D := by cases g <;> rfl

theorem Flip.xy {g : Flip} {c : Cell} (h : c.xy = 0) : (g.cell c).xy = 0 := by
  cases g <;> simp [Flip.cell, h]

theorem Flip.frac (g : Flip) (c : Cell) (hg : g = .swap → c.xy = 0) (v : V3) :
    (g.cell c).box.frac (g.vec v) = g.vec (c.box.frac v) := by
  obtain ⟨Lx, Ly, Lz, xy, xz, yz, d⟩ := c
  obtain ⟨x, y, z⟩ := v
  cases g
  · cases d <;> simp [Flip.cell, Cell.box, Box.frac, Flip.vec] <;> ring
  · cases d <;> simp [Flip.cell, Cell.box, Box.frac, Flip.vec] <;> ring
  · have := hg rfl
    simp only at this
    subst this
    cases d <;> simp [Flip.cell, Cell.box, Box.frac, Flip.vec]

theorem Flip.coord (g : Flip) (c : Cell) (hg : g = .swap → c.xy = 0) (f : V3) :
    (g.cell c).box.coord (g.vec f) = g.vec (c.box.coord f) := by
  obtain ⟨Lx, Ly, Lz, xy, xz, yz, d⟩ := c
  obtain ⟨x, y, z⟩ := f
  cases g
  · cases d <;> simp [Flip.cell, Cell.box, Box.coord, Flip.vec] <;> ring
  · cases d <;> simp [Flip.cell, Cell.box, Box.coord, Flip.vec]; ring
  · have := hg rfl
    simp only at this
    subst this
    cases d <;> simp [Flip.cell, Cell.box, Box.coord, Flip.vec]

theorem Flip.noTie {g : Flip} {c : Cell} (hc : c.Proper) (hg : g = .swap → c.xy = 0) {v : V3}
    (h : NoTie c v) : NoTie (g.cell c) (g.vec v) := by
  rw [noTie_iff hc] at h
  rw [noTie_iff (Flip.proper hc), Flip.frac g c hg, Flip.is2D]
  have neg : ∀ {t : ℝ}, (∀ k : ℤ, t ≠ k + 1 / 2) → ∀ k : ℤ, -t ≠ k + 1 / 2 := by
    intro t ht k e
    have := ht (-k - 1)
    push_cast at this
    apply this
    linarith
  intro k
  cases g
  · exact ⟨neg (fun k => (h k).1) k, (h k).2⟩
  · exact ⟨(h k).1, neg (fun k => (h k).2.1) k, (h k).2.2⟩
  · exact ⟨(h k).2.1, (h k).1, (h k).2.2⟩

theorem Flip.wrap {g : Flip} {c : Cell} (hc : c.Proper) (hg : g = .swap → c.xy = 0) {v : V3}
    (h : NoTie c v) : (g.cell c).box.wrap (g.vec v) = g.vec (c.box.wrap v) := by
  rw [noTie_iff hc] at h
  unfold Box.wrap
  rw [← Flip.coord g c hg, Flip.frac g c hg]
  cases g
  · simp only [Flip.vec, wrap1_neg (fun k => (h k).1)]
  · simp only [Flip.vec, wrap1_neg (fun k => (h k).2.1)]
  · rfl

theorem Flip.vec_sub (g : Flip) (v w : V3) : g.vec v - g.vec w = g.vec (v - w) := by
  cases g <;> ext <;> simp [Flip.vec] <;> ring

theorem Flip.vec_add (g : Flip) (v w : V3) : g.vec v + g.vec w = g.vec (v + w) := by
  cases g <;> ext <;> simp [Flip.vec] <;> ring

theorem Flip.vec_zero (g : Flip) : g.vec 0 = 0 := by
  cases g <;> ext <;> simp [Flip.vec]

theorem Flip.len2 (g : Flip) (v : V3) : Dynamics.len2 (g.vec v) = Dynamics.len2 v := by
  cases g <;> simp only [Flip.vec, Dynamics.len2] <;> ring

/-! ## Several changes -/

/-- What the changes need. -/
def Fit (gs : List Flip) (c : Cell) : Prop := Flip.swap ∈ gs → c.xy = 0

theorem newCell_proper (gs : List Flip) {c : Cell} (hc : c.Proper) : (newCell gs c).Proper := by
  induction gs with
  | nil => exact hc
  | cons g gs ih => exact Flip.proper ih

theorem newCell_is2D (gs : List Flip) (c : Cell) : (newCell gs c).is2D = c.is2D := by
  induction gs with
  | nil => rfl
  | cons g gs ih => exact (Flip.is2D g _).trans ih

theorem newCell_xy (gs : List Flip) {c : Cell} (h : c.xy = 0) : (newCell gs c).xy = 0 := by
  induction gs with
  | nil => exact h
  | cons g gs ih => exact Flip.xy ih

theorem newVec_sub (gs : List Flip) (v w : V3) : newVec gs v - newVec gs w = newVec gs (v - w) := by
  induction gs with
  | nil => rfl
  | cons g gs ih =>
    change g.vec (newVec gs v) - g.vec (newVec gs w) = g.vec (newVec gs (v - w))
    rw [Flip.vec_sub, ih]

theorem newVec_zero (gs : List Flip) : newVec gs 0 = 0 := by
  induction gs with
  | nil => rfl
  | cons g gs ih =>
    change g.vec (newVec gs 0) = 0
    rw [ih, Flip.vec_zero]

theorem newVec_len2 (gs : List Flip) (v : V3) : len2 (newVec gs v) = len2 v := by
  induction gs with
  | nil => rfl
  | cons g gs ih => exact (Flip.len2 g _).trans ih

theorem newVec_wrap {gs : List Flip} {c : Cell} (hc : c.Proper) (hg : Fit gs c) {v : V3}
    (h : NoTie c v) : NoTie (newCell gs c) (newVec gs v) ∧
      (newCell gs c).box.wrap (newVec gs v) = newVec gs (c.box.wrap v) := by
  induction gs with
  | nil => exact ⟨h, rfl⟩
  | cons g gs ih =>
    obtain ⟨h1, h2⟩ := ih (fun hm => hg (List.mem_cons_of_mem _ hm))
    have hx : g = .swap → (newCell gs c).xy = 0 := by
      rintro rfl
      exact newCell_xy gs (hg List.mem_cons_self)
    refine ⟨Flip.noTie (newCell_proper gs hc) hx h1, ?_⟩
    change (g.cell (newCell gs c)).box.wrap (g.vec (newVec gs v)) = g.vec (newVec gs (c.box.wrap v))
    rw [Flip.wrap (newCell_proper gs hc) hx h1, h2]

theorem sumT_succ {N : ℕ} (b : Box) (s : ℕ → Fin N → V3) (n : ℕ) (m : Fin N) :
    sumT b s (n + 1) m = sumT b s n m - b.wrap (s n m - s (n + 1) m) := by
  simp only [sumT, Finset.sum_range_succ]
  abel

theorem sumT_new {gs : List Flip} {c : Cell} (hc : c.Proper) (hg : Fit gs c) {N : ℕ}
    (s : ℕ → Fin N → V3) (n : ℕ) (h : ∀ i < n, ∀ m, NoTie c (s i m - s (i + 1) m)) (m : Fin N) :
    sumT (newCell gs c).box (fun i m => newVec gs (s i m)) n m = newVec gs (sumT c.box s n m) := by
  induction n with
  | zero => simp [sumT, newVec_zero]
  | succ n ih =>
    rw [sumT_succ, sumT_succ, ih (fun i hi => h i (by omega)), newVec_sub,
      (newVec_wrap hc hg (h n (by omega) m)).2, newVec_sub]

/-! ## Angles -/

theorem toEuler_planar (a : ℝ) : toEuler (zRot a) = (arctan2 (Real.sin a) (Real.cos a), 0, 0) := by
  have h1 : Real.cos (a / 2) ^ 2 - Real.sin (a / 2) ^ 2 = Real.cos a := by
    rw [← Real.cos_two_mul']; congr 1; ring
  have h2 : 2 * (Real.cos (a / 2) * Real.sin (a / 2)) = Real.sin a := by
    rw [← mul_assoc, mul_right_comm, ← Real.sin_two_mul]; congr 1; ring
  have h4 : Real.cos (a / 2) ^ 2 + Real.sin (a / 2) ^ 2 = 1 := Real.cos_sq_add_sin_sq _
  have h5 : arctan2 0 1 = 0 := by
    unfold arctan2
    rw [show (⟨1, 0⟩ : ℂ) = 1 from rfl, Complex.arg_one]
  unfold toEuler
  simp [h1, h2, h4, h5]

theorem arctan2_neg {a : ℝ} (h : Real.cos a ≠ -1) :
    arctan2 (Real.sin (-a)) (Real.cos (-a)) = -arctan2 (Real.sin a) (Real.cos a) := by
  unfold arctan2
  have e : (⟨Real.cos (-a), Real.sin (-a)⟩ : ℂ) = (starRingEnd ℂ) ⟨Real.cos a, Real.sin a⟩ := by
    apply Complex.ext <;> simp
  rw [e, Complex.arg_conj, if_neg]
  intro hp
  rw [Complex.arg_eq_pi_iff] at hp
  simp only at hp
  apply h
  have := Real.sin_sq_add_cos_sq a
  rw [hp.2] at this
  have h1 : (Real.cos a - 1) * (Real.cos a + 1) = 0 := by linarith
  rcases mul_eq_zero.1 h1 with h2 | h2
  · linarith [hp.1]
  · linarith

theorem toEuler_planar_neg {a : ℝ} (h : Real.cos a ≠ -1) : toEuler (zRot (-a)) = -toEuler (zRot a) := by
  rw [toEuler_planar, toEuler_planar, arctan2_neg h]
  ext <;> simp

theorem planar_unit {N : ℕ} (θ : Option (ℕ → Fin N → ℝ)) : Unit (planar θ) := by
  intro i q hq m
  cases θ with
  | none => cases hq
  | some θ =>
    obtain rfl := Option.some.inj hq
    exact normSq_zRot _

theorem newAngle_sub (gs : List Flip) (a b : ℝ) : newAngle gs a - newAngle gs b = newAngle gs (a - b) := by
  induction gs with
  | nil => rfl
  | cons g gs ih =>
    change -newAngle gs a - -newAngle gs b = -newAngle gs (a - b)
    rw [← ih]
    ring

theorem newAngle_eq (gs : List Flip) (a : ℝ) : newAngle gs a = a ∨ newAngle gs a = -a := by
  induction gs with
  | nil => exact .inl rfl
  | cons g gs ih =>
    change -newAngle gs a = a ∨ -newAngle gs a = -a
    rcases ih with h | h <;> simp [h]

theorem rotInc_planar {N : ℕ} (θ : ℕ → Fin N → ℝ) (i j : ℕ) (m : Fin N) :
    rotInc (planar (some θ) i) (planar (some θ) j) m = toEuler (zRot (θ j m - θ i m)) := by
  simp only [rotInc, planar, Option.map_some]
  rw [zRot_inv, zRot_mul, sub_eq_add_neg]

theorem sumR_none {N : ℕ} (n : ℕ) (m : Fin N) : sumR (planar none) n m = 0 := by
  unfold sumR
  apply Finset.sum_eq_zero
  intro i _
  simp [rotInc, planar]

theorem toEuler_newAngle (gs : List Flip) {a : ℝ} (h : Real.cos a ≠ -1) :
    toEuler (zRot (newAngle gs a)) = (if newAngle gs 1 = 1 then (1 : ℝ) else -1) • toEuler (zRot a) := by
  induction gs with
  | nil => simp [newAngle]
  | cons g gs ih =>
    have hc : Real.cos (newAngle gs a) ≠ -1 := by
      rcases newAngle_eq gs a with e | e <;> rw [e]
      · exact h
      · rwa [Real.cos_neg]
    change toEuler (zRot (-newAngle gs a)) = (if -newAngle gs 1 = 1 then (1 : ℝ) else -1) • _
    rw [toEuler_planar_neg hc, ih]
    rcases newAngle_eq gs 1 with e | e <;> rw [e] <;> norm_num

theorem sumR_new (gs : List Flip) {N : ℕ} (θ : Option (ℕ → Fin N → ℝ)) (n : ℕ)
    (h : NoHalfTurn θ n) (m : Fin N) :
    sumR (planar (θ.map (fun θ i m => newAngle gs (θ i m)))) (n + 1) m =
      (if newAngle gs 1 = 1 then (1 : ℝ) else -1) • sumR (planar θ) (n + 1) m := by
  cases θ with
  | none => rw [Option.map_none, sumR_none, smul_zero]
  | some θ =>
    unfold sumR
    rw [Option.map_some, Finset.smul_sum]
    apply Finset.sum_congr rfl
    intro i hi
    rw [rotInc_planar, rotInc_planar, newAngle_sub,
      toEuler_newAngle gs (h θ rfl i (by simpa [Nat.lt_succ_iff] using hi) m)]

theorem len2_neg_one (v : V3) : len2 ((-1 : ℝ) • v) = len2 v := by
  unfold len2
  simp

theorem len2_sign (p : Prop) [Decidable p] (v : V3) : len2 ((if p then (1 : ℝ) else -1) • v) = len2 v := by
  split
  · rw [one_smul]
  · exact len2_neg_one v

/-! ## Wave vectors -/

theorem sum_shift_one (f : ℤ → ℝ) (n : ℕ) (h : ∀ j, f (j + n) = f j) :
    ∑ j ∈ Finset.range n, f ((j : ℤ) + 1) = ∑ j ∈ Finset.range n, f (j : ℤ) := by
  have h1 := Finset.sum_range_succ (fun j : ℕ => f (j : ℤ)) n
  have h2 := Finset.sum_range_succ' (fun j : ℕ => f (j : ℤ)) n
  have h3 := h 0
  simp only [Nat.cast_add, Nat.cast_one, zero_add, Nat.cast_zero] at h1 h2 h3
  linarith

theorem sum_shift (f : ℤ → ℝ) (n : ℕ) (h : ∀ j, f (j + n) = f j) (a : ℤ) :
    ∑ j ∈ Finset.range n, f ((j : ℤ) + a) = ∑ j ∈ Finset.range n, f (j : ℤ) := by
  induction a with
  | zero => simp
  | succ a ih =>
    rw [← ih, ← sum_shift_one (fun j => f (j + a)) n (fun j => by rw [← h (j + a)]; ring_nf)]
    apply Finset.sum_congr rfl
    intro j _
    ring_nf
  | pred a ih =>
    rw [← ih, ← sum_shift_one (fun j => f (j + (-(a : ℤ) - 1))) n
      (fun j => by rw [← h (j + (-(a : ℤ) - 1))]; ring_nf)]
    apply Finset.sum_congr rfl
    intro j _
    ring_nf

theorem sum_flip (f : ℤ → ℝ) (n : ℕ) (h : ∀ j, f (j + n) = f j) (a : ℤ) :
    ∑ j ∈ Finset.range n, f (a - (j : ℤ)) = ∑ j ∈ Finset.range n, f (j : ℤ) := by
  rw [← Finset.sum_range_reflect, ← sum_shift f n h (a - n + 1)]
  apply Finset.sum_congr rfl
  intro j hj
  have := Finset.mem_range.1 hj
  congr 1
  omega

/-- The mean over the wave vectors is the same in the new axes. -/
theorem Flip.waves (g : Flip) (res : ℕ) (hg : g = .swap → 4 ∣ res) (k : ℝ) (v : V3) :
    ∑ j : Fin res, Real.cos (k * (Real.cos (j * (2 * Real.pi / res)) * (g.vec v).1 +
        Real.sin (j * (2 * Real.pi / res)) * (g.vec v).2.1)) =
      ∑ j : Fin res, Real.cos (k * (Real.cos (j * (2 * Real.pi / res)) * v.1 +
        Real.sin (j * (2 * Real.pi / res)) * v.2.1)) := by
  rcases Nat.eq_zero_or_pos res with rfl | hres
  · simp
  have hr : (res : ℝ) ≠ 0 := by positivity
  let f : ℤ → ℝ := fun j => Real.cos (k * (Real.cos (j * (2 * Real.pi / res)) * v.1 +
        Real.sin (j * (2 * Real.pi / res)) * v.2.1))
  have hf : ∀ j, f (j + res) = f j := by
    intro j
    simp only [f]
    push_cast
    rw [show ((j : ℝ) + res) * (2 * Real.pi / res) = j * (2 * Real.pi / res) + 2 * Real.pi by
      field_simp, Real.cos_add_two_pi, Real.sin_add_two_pi]
  have e2 := Fin.sum_univ_eq_sum_range (fun j : ℕ => f (j : ℤ)) res
  simp only [f, Int.cast_natCast] at e2
  rw [e2]
  cases g with
  | x =>
    have e1 := Fin.sum_univ_eq_sum_range (fun j : ℕ => f (0 - (j : ℤ))) res
    rw [sum_flip f res hf 0] at e1
    simp only [f, Int.cast_natCast] at e1
    rw [← e1]
    apply Finset.sum_congr rfl
    intro j _
    simp only [Flip.vec]
    push_cast
    rw [show (0 - (j : ℝ)) * (2 * Real.pi / res) = -(j * (2 * Real.pi / res)) by ring,
      Real.cos_neg, Real.sin_neg, ← Real.cos_neg]
    congr 1
    ring
  | y =>
    have e1 := Fin.sum_univ_eq_sum_range (fun j : ℕ => f (0 - (j : ℤ))) res
    rw [sum_flip f res hf 0] at e1
    simp only [f, Int.cast_natCast] at e1
    rw [← e1]
    apply Finset.sum_congr rfl
    intro j _
    simp only [Flip.vec]
    push_cast
    rw [show (0 - (j : ℝ)) * (2 * Real.pi / res) = -(j * (2 * Real.pi / res)) by ring,
      Real.cos_neg, Real.sin_neg]
    congr 1
    ring
  | swap =>
    obtain ⟨q, rfl⟩ := hg rfl
    have e1 := Fin.sum_univ_eq_sum_range (fun j : ℕ => f ((q : ℤ) - (j : ℤ))) (4 * q)
    rw [sum_flip f _ hf q] at e1
    simp only [f, Int.cast_natCast] at e1
    rw [← e1]
    have hq : (q : ℝ) ≠ 0 := by
      intro h
      apply hr
      push_cast
      rw [h]
      ring
    apply Finset.sum_congr rfl
    intro j _
    simp only [Flip.vec]
    push_cast
    rw [show ((q : ℝ) - j) * (2 * Real.pi / (4 * q)) = Real.pi / 2 - j * (2 * Real.pi / (4 * q)) by
      field_simp; ring, Real.cos_pi_div_two_sub, Real.sin_pi_div_two_sub]
    congr 1
    ring

theorem newVec_waves (gs : List Flip) (res : ℕ) (hg : Flip.swap ∈ gs → 4 ∣ res) (k : ℝ) (v : V3) :
    ∑ j : Fin res, Real.cos (k * (Real.cos (j * (2 * Real.pi / res)) * (newVec gs v).1 +
        Real.sin (j * (2 * Real.pi / res)) * (newVec gs v).2.1)) =
      ∑ j : Fin res, Real.cos (k * (Real.cos (j * (2 * Real.pi / res)) * v.1 +
        Real.sin (j * (2 * Real.pi / res)) * v.2.1)) := by
  induction gs with
  | nil => rfl
  | cons g gs ih =>
    refine (Flip.waves g res ?_ k (newVec gs v)).trans (ih (fun h => hg (List.mem_cons_of_mem _ h)))
    rintro rfl
    exact hg List.mem_cons_self

theorem avg_swap {M N : ℕ} (f : Fin M → Fin N → ℝ) :
    avg (fun j => avg (fun m => f j m)) = avg (fun m => avg (fun j => f j m)) := by
  unfold avg
  rw [← Finset.sum_div, ← Finset.sum_div, Finset.sum_comm, div_right_comm]

/-- The scattering function from its sums over the wave vectors. -/
theorem isf_same {N : ℕ} (b b' : Box) (mol mol' : Option Mol) (k : Option ℝ) (res : ℕ) (t0 : ℤ)
    (s s' : ℕ → Fin N → V3) (o o' : ℕ → Option (Fin N → Quat)) (n : ℕ) (sc : Bool)
    (h : ∀ (k : ℝ) (m : Fin N), ∑ j : Fin res, Real.cos (k *
          (Real.cos (j * (2 * Real.pi / res)) * (sumT b' s' n m).1 +
            Real.sin (j * (2 * Real.pi / res)) * (sumT b' s' n m).2.1)) =
        ∑ j : Fin res, Real.cos (k * (Real.cos (j * (2 * Real.pi / res)) * (sumT b s n m).1 +
            Real.sin (j * (2 * Real.pi / res)) * (sumT b s n m).2.1))) :
    isfVal (dynAfter b' mol' k res t0 s' o' n) sc = isfVal (dynAfter b mol k res t0 s o n) sc := by
  unfold isfVal
  cases k with
  | none => simp [dynAfter]
  | some k =>
    have e := isf_eq (D := dynAfter b mol (some k) res t0 s o n) (k := k) (res := res) rfl
      (d := sumT b s n) rfl
    have e' := isf_eq (D := dynAfter b' mol' (some k) res t0 s' o' n) (k := k) (res := res) rfl
      (d := sumT b' s' n) rfl
    rw [e, e', avg_swap, avg_swap (fun (j : Fin res) m => Real.cos (k *
      (Real.cos (2 * Real.pi * j / res) * (sumT b s n m).1 +
        Real.sin (2 * Real.pi * j / res) * (sumT b s n m).2.1)))]
    have e2 : ∀ j : Fin res, 2 * Real.pi * (j : ℕ) / res = (j : ℕ) * (2 * Real.pi / res) := by
      intro j
      ring
    simp only [e2]
    have : ∀ m, avg (fun j : Fin res => Real.cos (k *
          (Real.cos (j * (2 * Real.pi / res)) * (sumT b' s' n m).1 +
            Real.sin (j * (2 * Real.pi / res)) * (sumT b' s' n m).2.1))) =
        avg (fun j : Fin res => Real.cos (k * (Real.cos (j * (2 * Real.pi / res)) * (sumT b s n m).1 +
            Real.sin (j * (2 * Real.pi / res)) * (sumT b s n m).2.1))) := by
      intro m
      unfold avg
      rw [h]
    simp only [this]
    rfl

theorem freudBox_of {c : Cell} {mol : Option Mol} (h : c.is2D = is2d mol) :
    createFreudBox c.array (is2d mol) = .ok c.box := by
  rw [← h]
  rfl

/-! ## Time -/

theorem wrap1_zero : wrap1 0 = 0 := by
  have := wrap1_of_mem (t := 0) (k := 0) (by norm_num) (by norm_num)
  simpa using this

theorem wrap_neg {c : Cell} (hc : c.Proper) {v : V3} (h : NoTie c v) :
    c.box.wrap (-v) = -c.box.wrap v := by
  rw [noTie_iff hc] at h
  have hf : c.box.frac (-v) = -c.box.frac v := by
    unfold Box.frac
    ext
    · simp only [Prod.fst_neg, Prod.snd_neg]
      ring
    · simp only [Prod.fst_neg, Prod.snd_neg]
      ring
    · simp only [Prod.snd_neg]
      split
      · simp
      · ring
  have h3 : wrap1 (-(c.box.frac v).2.2) = -wrap1 (c.box.frac v).2.2 := by
    cases h2 : c.is2D with
    | false => exact wrap1_neg (fun k => (h k).2.2 h2)
    | true =>
      have : (c.box.frac v).2.2 = 0 := by simp [Box.frac, Cell.box, h2]
      rw [this, neg_zero, wrap1_zero, neg_zero]
  have hcoord : ∀ a b d : ℝ, c.box.coord (-a, -b, -d) = -c.box.coord (a, b, d) := by
    intro a b d
    rw [coord_box, coord_box, comb_neg]
  unfold Box.wrap
  rw [hf]
  simp only [Prod.fst_neg, Prod.snd_neg]
  rw [wrap1_neg (fun k => (h k).1), wrap1_neg (fun k => (h k).2.1), h3, hcoord]

theorem sumT_backwards {c : Cell} (hc : c.Proper) {N : ℕ} (s : ℕ → Fin N → V3) (n : ℕ)
    (h : ∀ i < n, ∀ m, NoTie c (s i m - s (i + 1) m)) (m : Fin N) :
    sumT c.box (backwards n s) n m = -sumT c.box s n m := by
  unfold sumT backwards
  rw [neg_neg, ← Finset.sum_range_reflect, ← Finset.sum_neg_distrib]
  apply Finset.sum_congr rfl
  intro j hj
  have := Finset.mem_range.1 hj
  rw [show n - (n - 1 - j) = j + 1 by omega, show n - (n - 1 - j + 1) = j by omega,
    ← neg_sub, wrap_neg hc (h j this m), neg_neg]

theorem sumR_backwards {N : ℕ} (θ : Option (ℕ → Fin N → ℝ)) (n : ℕ) (h : NoHalfTurn θ n) (m : Fin N) :
    sumR (planar (θ.map (backwards (n + 1)))) (n + 1) m = -sumR (planar θ) (n + 1) m := by
  cases θ with
  | none => rw [Option.map_none, sumR_none, neg_zero]
  | some θ =>
    unfold sumR
    rw [Option.map_some, ← Finset.sum_range_reflect, ← Finset.sum_neg_distrib]
    apply Finset.sum_congr rfl
    intro j hj
    have := Finset.mem_range.1 hj
    rw [rotInc_planar, rotInc_planar]
    unfold backwards
    rw [show n + 1 - (n + 1 - 1 - j) = j + 1 by omega, show n + 1 - (n + 1 - 1 - j + 1) = j by omega,
      ← neg_sub, toEuler_planar_neg (h θ rfl j (by omega) m)]

theorem len2_neg (v : V3) : len2 (-v) = len2 v := by
  unfold len2
  simp

/-! ## Single molecules, for the refutations -/

theorem mean_displacement_reported {N : ℕ} (hN : 0 < N) (argsort : List ℝ → List ℕ) {c : Cell}
    {mol : Option Mol} (h2 : c.is2D = is2d mol) (k : Option ℝ) (res : ℕ) (t0 t : ℤ)
    (s : ℕ → Fin N → V3) (o : ℕ → Option (Fin N → Quat)) (ho : Unit o) (n : ℕ) (sc : Bool)
    {row : Dict Quantity Val} (h : rowAt argsort c.array mol k res t0 (frame s o 0)
        (frames s o 1 (n + 1)) t (frame s o (n + 1)) sc = .ok row) :
    Reports row .mean_displacement (avg (fun m => len (sumT c.box s (n + 1) m))) ∧
    Reports row .mean_rotation (avg (fun m => len (sumR o (n + 1) m))) ∧
    ∀ x, isfVal (dynAfter c.box mol k res t0 s o (n + 1)) sc = .ok (some x) →
      Reports row .scattering_function x := by
  rw [rowAt_eq hN argsort (freudBox_of h2) k res t0 t s o ho n sc] at h
  obtain ⟨al, isf, distance, ar, ga, ov, st, -, hi, -, -, -, -, -, rfl⟩ := quantities_ok h
  refine ⟨?_, ?_, ?_⟩
  · unfold Reports
    rw [meanDisp_eq (D := dynAfter c.box mol k res t0 s o (n + 1)) (d := sumT c.box s (n + 1)) rfl]
    rfl
  · unfold Reports
    rw [meanRot_eq (D := dynAfter c.box mol k res t0 s o (n + 1)) (r := sumR o (n + 1)) rfl]
    rfl
  · intro x hx
    rw [hx] at hi
    obtain rfl := Except.ok.inj hi
    rfl

open Classical in
/-- "struct" of one molecule with one particle, for the distance 1. -/
theorem struct_single (v : V3) (u : ℕ → V3) (θ : ℕ → ℝ) (n : ℕ) (hu : ∀ i, (u i).2.2 = 0)
    (hT : ∀ i < n, (⟨10, 10, 1, 0, 0, 0, true⟩ : Cell).WithinHalf (u (i + 1) - u i))
    (hR : ∀ i < n, |θ (i + 1) - θ i| < Real.pi) :
    ∃ D, Plane D ⟨10, 10, 1, 0, 0, 0, true⟩ (Real.pi / 2) (fun _ : Fin 1 => v)
        (fun i (_ : Fin 1) => u i) (fun i _ => θ i) n ∧
      D.structRelax = .ok
        (if len2 (turnedX (θ n - θ 0) v + (u n - u 0) - v) < 1 then 1 else 0) := by
  have hpi := Real.pi_pos
  obtain ⟨D, hD⟩ := plane_exists (N := 1) one_pos ⟨10, 10, 1, 0, 0, 0, true⟩ (by simp [Cell.Proper])
    rfl (Real.pi / 2) (fun _ : Fin 1 => v) (fun i (_ : Fin 1) => u i) (fun i _ => θ i) n
    (fun i _ => hu i) (fun i hi _ => hT i hi) (fun i hi _ => hR i hi)
  have hst := hD.inState one_pos
  refine ⟨D, hD, ?_⟩
  rw [structRelax_ofFn one_pos one_pos D _ _ hst.hd hst.hr _ hst.hv hst.hn _
    (hst.distance (by positivity)), show Real.pi / (2 * (Real.pi / 2)) = 1 by field_simp]
  simp only [structQuat_x, len_lt_one]
  split
  · rename_i h
    rw [Finset.filter_true_of_mem (fun _ _ => h)]
    simp
  · rename_i h
    rw [Finset.filter_false_of_mem (fun _ _ => h)]
    simp

theorem wrap_line (L x : ℝ) :
    (⟨L, L, 1, 0, 0, 0, true⟩ : Cell).box.wrap (x, 0, 0) = (L * wrap1 (x / L), 0, 0) := by
  have h0 := wrap1_zero
  simp [Box.wrap, Box.frac, Box.coord, Cell.box, h0, mul_comm]

theorem wrap1_quarter : wrap1 (1 / 4) = 1 / 4 := by
  have := wrap1_of_mem (t := 1 / 4) (k := 0) (by norm_num) (by norm_num)
  simpa using this

theorem wrap1_neg_quarter : wrap1 (-1 / 4) = -1 / 4 := by
  have := wrap1_of_mem (t := -1 / 4) (k := 0) (by norm_num) (by norm_num)
  simpa using this

theorem wrap1_neg_half : wrap1 (-1 / 2) = -1 / 2 := by
  have := wrap1_of_mem (t := -1 / 2) (k := 0) (by norm_num) (by norm_num)
  simpa using this

theorem wrap1_half : wrap1 (1 / 2) = -1 / 2 := by
  have := wrap1_of_mem (t := -1 / 2) (k := 1) (by norm_num) (by norm_num)
  have e : (-1 / 2 : ℝ) + ((1 : ℤ) : ℝ) = 1 / 2 := by norm_num
  rwa [e] at this

/-- Two steps along x in a cell of length 1. -/
theorem sumT_line {N : ℕ} (f : ℕ → ℝ) (m : Fin N) :
    sumT (⟨1, 1, 1, 0, 0, 0, true⟩ : Cell).box (fun i (_ : Fin N) => ((f i, 0, 0) : V3)) 2 m =
      (-(wrap1 (f 0 - f 1) + wrap1 (f 1 - f 2)), 0, 0) := by
  unfold sumT
  have h := fun x : ℝ => wrap_line 1 x
  simp only [Finset.sum_range_succ, Finset.sum_range_zero, zero_add, Prod.mk_sub_mk, sub_zero, h,
    div_one, one_mul]
  ext <;> simp

theorem len_x (x : ℝ) : len (x, 0, 0) = |x| := by
  simp [len, len2, Real.sqrt_mul_self_eq_abs]

end Verif.Dynamics
