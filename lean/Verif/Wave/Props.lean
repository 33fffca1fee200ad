import Verif.Wave.Lemmas
import Verif.Motion.Lemmas
import Verif.Dynamics.Props
import Verif.Pipeline.Model
/-!
# Properties of wave numbers and wave vectors, C98-C100
-/

namespace Verif.Wave

open Verif.Motion

/-! ## C98 -/

/-- The property as stated, in two dimensions: the wave number is a maximum on the grid of the structure
factor of the plane.  The radial distribution function has 200 bins, and no negative values. -/
def PlanarMaximum : Prop :=
  ∀ (rdf : Box → ℝ → ℝ → List V3 → Except PyErr Rdf) (b : Box) (pos : List V3) (g : Fin 200 → ℝ) (κ : ℝ),
    b.is2D = true → 0 < b.Lx → 0 < b.Ly → pos ≠ [] → (∀ i, 0 ≤ g i) →
    rdf b (searchRadius b / 200) (searchRadius b) pos =
      .ok ⟨List.ofFn (fun i : Fin 200 => ((i : ℕ) + 1 / 2) * (searchRadius b / 200)), List.ofFn g, b.Lx * b.Ly⟩ →
    calculateWaveNumber rdf b pos = .ok κ →
    ∀ j < 200, planarStructureFactor (fun i : Fin 200 => ((i : ℕ) + 1 / 2) * (searchRadius b / 200)) g
        (searchRadius b / 200) (b.Lx * b.Ly) pos.length (1 / 2 + (j : ℝ) * (39 / 398)) ≤
      planarStructureFactor (fun i : Fin 200 => ((i : ℕ) + 1 / 2) * (searchRadius b / 200)) g
        (searchRadius b / 200) (b.Lx * b.Ly) pos.length κ

/-- **C98 is false in two dimensions**: the transform of three dimensions is used. -/
theorem C98_planar_refuted : ¬ PlanarMaximum := by
  intro h
  have hpi := Real.pi_pos
  let b : Box := ⟨44 / 5, 44 / 5, 0, 0, 0, 0, true⟩
  have hsr : searchRadius b = 4 := by simp [searchRadius, b]; norm_num
  let r : Fin 200 → ℝ := fun i => ((i : ℕ) + 1 / 2) * (searchRadius b / 200)
  have hr0 : r 0 = 1 / 100 := by simp [r, hsr]; norm_num
  have hr1 : r 1 = 3 / 100 := by simp [r, hsr]; norm_num
  let R : Rdf := ⟨List.ofFn r, List.ofFn wG, b.Lx * b.Ly⟩
  let rdf : Box → ℝ → ℝ → List V3 → Except PyErr Rdf := fun _ _ _ _ => .ok R
  have hv : b.Lx * b.Ly ≠ 0 := by simp [b]
  have hS : ∀ x : ℝ, 1 / 2 ≤ x → staticStructureFactor R x ([0] : List V3).length =
      .ok (structureFactor r wG (r 1 - r 0) (b.Lx * b.Ly) 1 x) :=
    fun x hx => ssf_eq (by omega) r wG hv (by linarith) 1
  obtain ⟨i, hi, hκ, -, hlt⟩ := calculate_spec (rdf := rdf) (b := b) (pos := [0]) rfl hS
  -- the code chooses the first point of the grid
  have hcode : ∀ x : ℝ, x ≠ 0 → structureFactor r wG (r 1 - r 0) (b.Lx * b.Ly) 1 x =
      1 + 4 * Real.pi * (1 / (b.Lx * b.Ly)) * (2 / 100 * (1 / 10000)) *
        (-(Real.sin (x / 100) / (x / 100)) + 9 / 50 * (Real.sin (3 * x / 100) / (3 * x / 100))) := by
    intro x hx
    unfold structureFactor
    have := wG_sum (fun y => Real.sin (x * y) / x) (r 1 - r 0) r
    rw [this, hr0, hr1, show x * (1 / 100) = x / 100 by ring, show x * (3 / 100) = 3 * x / 100 by ring]
    field_simp
    ring
  have hrho : 0 < 4 * Real.pi * (1 / (b.Lx * b.Ly)) * (2 / 100 * (1 / 10000)) := by
    simp only [b]; positivity
  have hi0 : i = 0 := by
    by_contra hne
    have h1 := hlt 0 (by omega)
    have hi1 : (1 : ℝ) ≤ i := by exact_mod_cast (by omega : 1 ≤ i)
    have hi2 : (i : ℝ) ≤ 199 := by exact_mod_cast (by omega : i ≤ 199)
    set k : ℝ := 1 / 2 + (i : ℝ) * (39 / 398) with hk
    have hk1 : 59 / 100 ≤ k := by rw [hk]; linarith
    have hk2 : k ≤ 20 := by rw [hk]; linarith
    have h0 : (1 / 2 + ((0 : ℕ) : ℝ) * (39 / 398)) = (1 / 2 : ℝ) := by norm_num
    rw [h0, hcode _ (by norm_num), hcode k (by linarith)] at h1
    have h2 : (-(Real.sin ((1 / 2 : ℝ) / 100) / ((1 / 2 : ℝ) / 100)) +
        9 / 50 * (Real.sin (3 * (1 / 2 : ℝ) / 100) / (3 * (1 / 2 : ℝ) / 100))) <
        (-(Real.sin (k / 100) / (k / 100)) + 9 / 50 * (Real.sin (3 * k / 100) / (3 * k / 100))) :=
      lt_of_mul_lt_mul_left (by linarith) hrho.le
    have a1 := (sinc_bounds (y := (1 / 2 : ℝ) / 100) (by norm_num) (by norm_num)).2
    have a2 := (sinc_bounds (y := 3 * (1 / 2 : ℝ) / 100) (by norm_num) (by norm_num)).1
    have a3 := (sinc_bounds (y := k / 100) (by linarith) (by linarith)).1
    have a4 := (sinc_bounds (y := 3 * k / 100) (by linarith) (by linarith)).2
    have hk4 : k ^ 4 ≤ 400 * k ^ 2 := by
      have : k ^ 2 ≤ 400 := by nlinarith
      nlinarith [mul_nonneg (sq_nonneg k) (sub_nonneg.2 this)]
    have hk3 : (59 / 100) ^ 2 ≤ k ^ 2 := by nlinarith
    have e1 : (k / 100) ^ 4 = k ^ 4 / 100000000 := by ring
    have e2 : (3 * k / 100) ^ 4 = 81 * k ^ 4 / 100000000 := by ring
    have e3 : (k / 100) ^ 2 = k ^ 2 / 10000 := by ring
    have e4 : (3 * k / 100) ^ 2 = 9 * k ^ 2 / 10000 := by ring
    rw [e1, e3] at a3
    rw [e2, e4] at a4
    norm_num at a1 a2 h2
    linarith
  subst hi0
  have h0 : (1 / 2 + ((0 : ℕ) : ℝ) * (39 / 398)) = (1 / 2 : ℝ) := by norm_num
  rw [h0] at hκ
  have hfin := h rdf b [0] wG (1 / 2) rfl (by norm_num [b]) (by norm_num [b]) (by simp) (by
    intro i; unfold wG; split
    · exact le_rfl
    · split <;> norm_num) rfl hκ 199 (by norm_num)
  have hplan : ∀ x : ℝ, planarStructureFactor r wG (searchRadius b / 200) (b.Lx * b.Ly) 1 x =
      1 + 2 * Real.pi * (1 / (b.Lx * b.Ly)) * (2 / 100 * (1 / 100)) *
        (-(circleAverage (x / 100)) + 3 / 50 * circleAverage (3 * x / 100)) := by
    intro x
    unfold planarStructureFactor
    have := wG_sum (fun y => circleAverage (x * y)) (searchRadius b / 200) r
    rw [this, hr0, hr1, hsr, show x * (1 / 100) = x / 100 by ring, show x * (3 / 100) = 3 * x / 100 by ring]
    field_simp
    push_cast
    ring
  have hrho : 0 < 2 * Real.pi * (1 / (b.Lx * b.Ly)) * (2 / 100 * (1 / 100)) := by
    simp only [b]; positivity
  have hfin' : planarStructureFactor r wG (searchRadius b / 200) (b.Lx * b.Ly) 1
      (1 / 2 + ((199 : ℕ) : ℝ) * (39 / 398)) ≤
      planarStructureFactor r wG (searchRadius b / 200) (b.Lx * b.Ly) 1 (1 / 2) := hfin
  rw [hplan, hplan] at hfin'
  have h2 := le_of_mul_le_mul_left (le_of_add_le_add_left hfin') hrho
  rw [show (1 / 2 + ((199 : ℕ) : ℝ) * (39 / 398)) = (20 : ℝ) by norm_num] at h2
  have a1 := (circle_bounds (x := (20 : ℝ) / 100) (by norm_num) (by norm_num)).2
  have a2 := (circle_bounds (x := 3 * (20 : ℝ) / 100) (by norm_num) (by norm_num)).1
  have a3 := (circle_bounds (x := (1 / 2 : ℝ) / 100) (by norm_num) (by norm_num)).1
  have a4 := (circle_bounds (x := 3 * (1 / 2 : ℝ) / 100) (by norm_num) (by norm_num)).2
  norm_num at a1 a2 a3 a4 h2
  linarith

/-- **C98, the part that holds.**  Missing for the full statement: two dimensions, where the structure factor is
another (`C98_planar_refuted`).  For every radial distribution function on at least two bins in a box
with a volume, the function returns a wave number: the first maximum on the grid of the structure factor. -/
theorem C98_maximum_partial (rdf : Box → ℝ → ℝ → List V3 → Except PyErr Rdf) (b : Box) (pos : List V3)
    {B : ℕ} (hB : 2 ≤ B) (r g : Fin B → ℝ) {v : ℝ} (hv : v ≠ 0)
    (hrdf : rdf b (searchRadius b / 200) (searchRadius b) pos = .ok ⟨List.ofFn r, List.ofFn g, v⟩) :
    ∃ i : ℕ, i < 200 ∧ calculateWaveNumber rdf b pos = .ok (1 / 2 + (i : ℝ) * (39 / 398)) ∧
      ∀ j : ℕ, j < 200 →
        let S := structureFactor r g (r ⟨1, by omega⟩ - r ⟨0, by omega⟩) v pos.length
        S (1 / 2 + (j : ℝ) * (39 / 398)) ≤ S (1 / 2 + (i : ℝ) * (39 / 398)) ∧
        (j < i → S (1 / 2 + (j : ℝ) * (39 / 398)) < S (1 / 2 + (i : ℝ) * (39 / 398))) := by
  obtain ⟨i, h1, h2, h3, h4⟩ := calculate_spec hrdf
    (fun x hx => ssf_eq hB r g hv (show x ≠ 0 by linarith) pos.length)
  exact ⟨i, h1, h2, fun j hj => ⟨h3 j hj, h4 j⟩⟩

/-- Without structure the wave number is the first of the grid. -/
theorem C98_no_structure (rdf : Box → ℝ → ℝ → List V3 → Except PyErr Rdf) (b : Box) (pos : List V3)
    {B : ℕ} (hB : 2 ≤ B) (r : Fin B → ℝ) {v : ℝ} (hv : v ≠ 0)
    (hrdf : rdf b (searchRadius b / 200) (searchRadius b) pos =
      .ok ⟨List.ofFn r, List.ofFn (fun _ : Fin B => (1 : ℝ)), v⟩) :
    calculateWaveNumber rdf b pos = .ok (1 / 2) := by
  obtain ⟨i, -, h2, h3⟩ := C98_maximum_partial rdf b pos hB r (fun _ => 1) hv hrdf
  rcases Nat.eq_zero_or_pos i with rfl | hi
  · rw [h2]; norm_num
  · have := (h3 0 (by omega)).2 hi
    simp [structureFactor] at this

/-- The wave number of `Relaxations` without one given is between 1/2 and 20, so the thresholds of the
molecular relaxations are positive. -/
theorem C98_positive (rdf : Box → ℝ → ℝ → List V3 → Except PyErr Rdf) (b : Box) (pos : List V3) {κ : ℝ}
    (h : Pipeline.waveOf (calculateWaveNumber rdf) b pos none = .ok κ) : 1 / 2 ≤ κ ∧ κ ≤ 20 := by
  change calculateWaveNumber rdf b pos = .ok κ at h
  unfold calculateWaveNumber at h
  split at h
  · cases h
  · split at h
    · cases h
    · split at h
      · cases h
      · split at h
        · rename_i x hx
          obtain rfl := Except.ok.inj h
          exact waveGrid_mem (List.mem_of_getElem? hx)
        · cases h

/-- A radial distribution function with two bins. -/
noncomputable def exRdf : Box → ℝ → ℝ → List V3 → Except PyErr Rdf := fun _ _ _ _ => .ok ⟨[1, 2], [0, 3], 10⟩

/-- The hypotheses of the theorems above: two bins. -/
example : ∃ κ, calculateWaveNumber exRdf ⟨5, 5, 5, 0, 0, 0, false⟩
    [0, (1, 0, 0)] = .ok κ ∧ 1 / 2 ≤ κ := by
  obtain ⟨i, -, h, -⟩ := C98_maximum_partial exRdf
    ⟨5, 5, 5, 0, 0, 0, false⟩ [0, (1, 0, 0)] (B := 2) le_rfl ![1, 2] ![0, 3] (v := 10) (by norm_num) (by simp [exRdf])
  exact ⟨_, h, (C98_positive exRdf ⟨5, 5, 5, 0, 0, 0, false⟩ _ h).1⟩

/-! ## C99 -/

/-- The property as stated: the search radius is such that each pair of molecules is within it for at most the
image that the box gives: vectors up to that length are in the central cell. -/
def RadiusFits (c : Cell) : Prop :=
  ∀ v : V3, c.flat v = v → Dynamics.len v ≤ searchRadius c.box → c.WithinHalf v

/-- **C99 is false** for tilted cells: the lengths of the cell vectors are used, not the distances of the
faces. -/
theorem C99_radius_refuted : ¬ ∀ c : Cell, c.Proper → RadiusFits c := by
  intro h
  let c : Cell := ⟨4, 4, 1, 1, 0, 0, true⟩
  have hc : c.Proper := by simp [c, Cell.Proper]
  obtain ⟨α, β, γ, h1, -, -, h4⟩ := h c hc (1, -1, 0) (by simp [c, Cell.flat]) (by
    have : searchRadius c.box = 20 / 11 := by simp [searchRadius, c, Cell.box]; norm_num
    rw [this]
    unfold Dynamics.len
    rw [Real.sqrt_le_left (by norm_num)]
    simp [Dynamics.len2]; norm_num)
  simp only [c, Cell.comb, if_true, Prod.smul_mk, smul_eq_mul, Prod.mk_add_mk, Prod.mk.injEq] at h4
  rw [abs_lt] at h1
  linarith [h4.1, h4.2.1, h1.2]

/-- **C99, the part that holds.**  Missing for the full statement: cells with larger tilts
(`C99_radius_refuted`).  For cells without tilt, or with tilts small enough that the distances of the faces are
more than 10/11 of the lengths, the radius fits. -/
theorem C99_radius_partial (c : Cell) (hc : c.Proper) (hxy : 1 + c.xy ^ 2 + (c.xy * c.yz - c.xz) ^ 2 < 121 / 100)
    (hyz : 1 + c.yz ^ 2 < 121 / 100) : RadiusFits c := by
  intro v hv hlen
  obtain ⟨hx, hy, hz⟩ := hc
  have hl0 : 0 ≤ Dynamics.len v := Real.sqrt_nonneg _
  have hsq : Dynamics.len v ^ 2 = v.1 ^ 2 + v.2.1 ^ 2 + v.2.2 ^ 2 := by
    unfold Dynamics.len
    rw [Real.sq_sqrt (by unfold Dynamics.len2; nlinarith [sq_nonneg v.1, sq_nonneg v.2.1, sq_nonneg v.2.2])]
    unfold Dynamics.len2; ring
  -- a projection with factor below 11/10 on a length
  have key : ∀ (L p s : ℝ), 0 < L → Dynamics.len v ≤ L / (22 / 10) → s < 121 / 100 →
      p ^ 2 ≤ s * Dynamics.len v ^ 2 → 0 ≤ s → |p / L| < 1 / 2 := by
    intro L p s hL h1 h2 h3 h4
    have h5 : Dynamics.len v ^ 2 ≤ (L / (22 / 10)) ^ 2 := pow_le_pow_left₀ hl0 h1 2
    have h6 : p ^ 2 < (L / 2) ^ 2 := by
      have h7 : 0 < (L / (22 / 10)) ^ 2 := by positivity
      have : s * Dynamics.len v ^ 2 ≤ s * (L / (22 / 10)) ^ 2 := mul_le_mul_of_nonneg_left h5 h4
      have : s * (L / (22 / 10)) ^ 2 < 121 / 100 * (L / (22 / 10)) ^ 2 := mul_lt_mul_of_pos_right h2 h7
      nlinarith
    rw [abs_div, abs_of_pos hL, div_lt_iff₀ hL]
    have := abs_lt_of_sq_lt_sq h6 (by positivity)
    linarith
  obtain ⟨x, y, z⟩ := v
  simp only at hsq
  cases h2 : c.is2D with
  | true =>
    have hz0 : z = 0 := by
      unfold Cell.flat at hv
      rw [h2, if_pos rfl] at hv
      exact (congrArg (fun v : V3 => v.2.2) hv).symm
    subst hz0
    have hr : searchRadius c.box = min (c.Lx / (22 / 10)) (c.Ly / (22 / 10)) := by
      simp [searchRadius, Cell.box, h2]
    rw [hr] at hlen
    refine ⟨(x - c.xy * y) / c.Lx, y / c.Ly, 0, ?_, ?_, by norm_num, ?_⟩
    · refine key c.Lx _ (1 + c.xy ^ 2) hx (hlen.trans (min_le_left _ _)) (by nlinarith [sq_nonneg (c.xy * c.yz - c.xz)])
        ?_ (by positivity)
      rw [hsq]
      nlinarith [sq_nonneg (c.xy * x + y)]
    · refine key c.Ly _ 1 hy (hlen.trans (min_le_right _ _)) (by norm_num) ?_ (by norm_num)
      rw [hsq]
      nlinarith [sq_nonneg x]
    · simp only [Cell.comb, h2, if_true, Prod.smul_mk, smul_eq_mul, Prod.mk_add_mk, Prod.mk.injEq]
      refine ⟨?_, ?_, by ring⟩ <;> field_simp <;> ring
  | false =>
    have hz := hz h2
    have hr : searchRadius c.box = min (min (c.Lx / (22 / 10)) (c.Ly / (22 / 10))) (c.Lz / (22 / 10)) := by
      simp [searchRadius, Cell.box, h2]
    rw [hr] at hlen
    refine ⟨(x - c.xy * y + (c.xy * c.yz - c.xz) * z) / c.Lx, (y - c.yz * z) / c.Ly, z / c.Lz, ?_, ?_, ?_, ?_⟩
    · refine key c.Lx _ (1 + c.xy ^ 2 + (c.xy * c.yz - c.xz) ^ 2) hx
        (hlen.trans ((min_le_left _ _).trans (min_le_left _ _))) hxy ?_ (by positivity)
      rw [hsq]
      generalize c.xy * c.yz - c.xz = d
      nlinarith [sq_nonneg (c.xy * x + y), sq_nonneg (d * x - z), sq_nonneg (d * y + c.xy * z)]
    · refine key c.Ly _ (1 + c.yz ^ 2) hy
        (hlen.trans ((min_le_left _ _).trans (min_le_right _ _))) hyz ?_ (by positivity)
      rw [hsq]
      nlinarith [sq_nonneg (c.yz * y + z), sq_nonneg x, mul_nonneg (sq_nonneg c.yz) (sq_nonneg x)]
    · refine key c.Lz _ 1 hz (hlen.trans (min_le_right _ _)) (by norm_num) ?_ (by norm_num)
      rw [hsq]
      nlinarith [sq_nonneg x, sq_nonneg y]
    · simp only [Cell.comb, h2, Bool.false_eq_true, if_false, Prod.smul_mk, smul_eq_mul, Prod.mk_add_mk, Prod.mk.injEq]
      refine ⟨?_, ?_, ?_⟩ <;> field_simp <;> ring

/-- A slightly tilted cell meets the hypotheses of `C99_radius_partial`. -/
example : (⟨4, 5, 6, 1 / 5, 1 / 5, 1 / 5, false⟩ : Cell).Proper ∧
    (1 : ℝ) + (1 / 5) ^ 2 + (1 / 5 * (1 / 5) - 1 / 5) ^ 2 < 121 / 100 := by
  constructor
  · simp [Cell.Proper]
  · norm_num

/-! ## C100 -/

open Verif.Dynamics in
/-- **C100.**  There are as many wave vectors as asked for, all of the length of the wave number. -/
theorem C100_vectors (k : ℝ) (res : ℕ) : (createWaveVector k res).length = res ∧
    ∀ v ∈ createWaveVector k res, v.1 ^ 2 + v.2 ^ 2 = k ^ 2 := by
  constructor
  · simp [createWaveVector]
  · intro v hv
    simp only [createWaveVector, List.mem_map] at hv
    obtain ⟨j, -, rfl⟩ := hv
    have := Real.sin_sq_add_cos_sq ((j : ℝ) * (2 * Real.pi / res))
    simp only
    linear_combination k ^ 2 * this

open Verif.Dynamics in
/-- The wave vectors of two or more directions add up to nothing. -/
theorem C100_sum (k : ℝ) {res : ℕ} (hres : 2 ≤ res) :
    ((createWaveVector k res).map Prod.fst).sum = 0 ∧ ((createWaveVector k res).map Prod.snd).sum = 0 := by
  have hr : (0 : ℝ) < res := by exact_mod_cast (by omega : 0 < res)
  have hpi := Real.pi_pos
  -- as sums
  have e1 : ((createWaveVector k res).map Prod.fst).sum =
      (∑ j : Fin res, Real.cos (2 * Real.pi * (j : ℕ) / res)) * k := by
    simp only [createWaveVector, List.map_map]
    rw [range_map_ofFn, List.sum_ofFn, Finset.sum_mul]
    apply Finset.sum_congr rfl
    intro j _
    show Real.cos _ * k = Real.cos _ * k
    congr 2
    ring
  have e2 : ((createWaveVector k res).map Prod.snd).sum =
      (∑ j : Fin res, Real.sin (2 * Real.pi * (j : ℕ) / res)) * k := by
    simp only [createWaveVector, List.map_map]
    rw [range_map_ofFn, List.sum_ofFn, Finset.sum_mul]
    apply Finset.sum_congr rfl
    intro j _
    show Real.sin _ * k = Real.sin _ * k
    congr 2
    ring
  have c1 := sum_directions (by omega : 0 < res) Real.cos (fun x => Real.cos_add_two_pi x)
  have s1 := sum_directions (by omega : 0 < res) Real.sin (fun x => Real.sin_add_two_pi x)
  simp only [Real.cos_sub, Real.sin_sub, Finset.sum_add_distrib, Finset.sum_sub_distrib, ← Finset.sum_mul] at c1 s1
  set C := ∑ j : Fin res, Real.cos (2 * Real.pi * (j : ℕ) / res) with hC
  set S := ∑ j : Fin res, Real.sin (2 * Real.pi * (j : ℕ) / res) with hS
  set a := Real.cos (2 * Real.pi / res)
  set b := Real.sin (2 * Real.pi / res)
  have hab : a ^ 2 + b ^ 2 = 1 := Real.cos_sq_add_sin_sq _
  have ha : a < 1 := by
    have h1 : 0 < 2 * Real.pi / res := by positivity
    have h2 : 2 * Real.pi / res ≤ Real.pi := by
      rw [div_le_iff₀ hr]
      have : (2 : ℝ) ≤ res := by exact_mod_cast hres
      nlinarith
    have := Real.cos_lt_cos_of_nonneg_of_le_pi le_rfl h2 h1
    simpa [a] using this
  have hC0 : (2 - 2 * a) * C = 0 := by linear_combination (a - 1) * c1 - b * s1 - C * hab
  have hS0 : (2 - 2 * a) * S = 0 := by linear_combination (a - 1) * s1 + b * c1 - S * hab
  have hne : (2 - 2 * a) ≠ 0 := by linarith
  have hC' := (mul_eq_zero.1 hC0).resolve_left hne
  have hS' := (mul_eq_zero.1 hS0).resolve_left hne
  rw [e1, e2, hC', hS']
  simp

open Verif.Dynamics in
/-- Turning all displacements by the angle between neighbouring wave vectors does not change the scattering
function, of two objects with the same wave number and resolution. -/
theorem C100_turned {k : ℝ} {res : ℕ} (hres : 0 < res) {D D' : Dyn}
    (hD : D.waveVector = some (createWaveVector k res)) (hD' : D'.waveVector = some (createWaveVector k res))
    (h : D'.motion.deltaT = D.motion.deltaT.map (turn (2 * Real.pi / res))) :
    ∃ x, D.isf = .ok x ∧ D'.isf = .ok x := by
  obtain ⟨N, d, hd⟩ : ∃ (N : ℕ) (d : Fin N → V3), D.motion.deltaT = List.ofFn d :=
    ⟨_, _, (List.ofFn_getElem (xs := D.motion.deltaT)).symm⟩
  have hd' : D'.motion.deltaT = List.ofFn (fun i => turn (2 * Real.pi / res) (d i)) := by
    rw [h, hd, List.map_ofFn]; rfl
  have key : avg (fun j : Fin res => avg (fun m => Real.cos (k *
        (Real.cos (2 * Real.pi * j / res) * (turn (2 * Real.pi / res) (d m)).1 +
          Real.sin (2 * Real.pi * j / res) * (turn (2 * Real.pi / res) (d m)).2.1)))) =
      avg (fun j : Fin res => avg (fun m => Real.cos (k *
        (Real.cos (2 * Real.pi * j / res) * (d m).1 + Real.sin (2 * Real.pi * j / res) * (d m).2.1)))) := by
    have h1 := sum_directions hres
      (fun α => avg (fun m => Real.cos (k * (Real.cos α * (d m).1 + Real.sin α * (d m).2.1))))
      (by intro x; simp only [Real.cos_add_two_pi, Real.sin_add_two_pi])
    have h2 : ∀ j : Fin res, avg (fun m => Real.cos (k *
        (Real.cos (2 * Real.pi * j / res) * (turn (2 * Real.pi / res) (d m)).1 +
          Real.sin (2 * Real.pi * j / res) * (turn (2 * Real.pi / res) (d m)).2.1))) =
        avg (fun m => Real.cos (k * (Real.cos (2 * Real.pi * j / res - 2 * Real.pi / res) * (d m).1 +
          Real.sin (2 * Real.pi * j / res - 2 * Real.pi / res) * (d m).2.1))) := by
      intro j
      refine congrArg avg (funext fun m => ?_)
      rw [Real.cos_sub, Real.sin_sub]
      refine congrArg Real.cos ?_
      unfold turn
      ring
    rw [funext h2]
    unfold avg at h1 ⊢
    rw [h1]
  exact ⟨_, isf_eq hD hd, (isf_eq hD' hd').trans (congrArg _ key)⟩

open Verif.Dynamics in
/-- Two objects as in `C100_turned`: a molecule that moved along x, and along y, with four directions. -/
example (b : Box) : let m : V3 → Tracked := fun v => ⟨b, [v], [0], [0], none⟩
    let D : V3 → Dyn := fun v => ⟨none, m v, 0, 1, some 2, some (createWaveVector 2 4)⟩
    (D (0, 1, 0)).motion.deltaT = (D (1, 0, 0)).motion.deltaT.map (turn (2 * Real.pi / (4 : ℕ))) := by
  have h : (2 * Real.pi / 4) = Real.pi / 2 := by ring
  simp [turn, h]

end Verif.Wave
