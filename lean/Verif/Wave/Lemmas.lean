import Verif.Wave.Model
import Verif.Wave.Spec
import Mathlib.Analysis.SpecialFunctions.Integrals.Basic
import Mathlib.Analysis.SpecialFunctions.Trigonometric.Bounds
import Mathlib.Tactic.Positivity
import Mathlib.Tactic.Linarith
import Mathlib.Tactic.FieldSimp
/-!
# Lemmas for wave numbers
-/

namespace Verif.Wave

open Verif.Motion

theorem zipWith_ofFn {α β γ : Type} (f : α → β → γ) {n : ℕ} (a : Fin n → α) (b : Fin n → β) :
    List.zipWith f (List.ofFn a) (List.ofFn b) = List.ofFn (fun i => f (a i) (b i)) := by
  apply List.ext_getElem <;> simp

theorem radialSum_ofFn {B : ℕ} (r g : Fin B → ℝ) (v k : ℝ) :
    radialSum ⟨List.ofFn r, List.ofFn g, v⟩ k = ∑ j, (g j - 1) * r j * Real.sin (k * r j) := by
  unfold radialSum
  rw [zipWith_ofFn, List.sum_ofFn]

/-- The function computes the structure factor. -/
theorem ssf_eq {B : ℕ} (hB : 2 ≤ B) (r g : Fin B → ℝ) {v : ℝ} (hv : v ≠ 0) {k : ℝ} (hk : k ≠ 0) (n : ℕ) :
    staticStructureFactor ⟨List.ofFn r, List.ofFn g, v⟩ k n =
      .ok (structureFactor r g (r ⟨1, by omega⟩ - r ⟨0, by omega⟩) v n k) := by
  obtain ⟨B, rfl⟩ : ∃ b, B = b + 2 := ⟨B - 2, by omega⟩
  unfold staticStructureFactor
  have h : List.ofFn r = r 0 :: r 1 :: List.ofFn (fun i : Fin B => r i.succ.succ) := by
    rw [List.ofFn_succ, List.ofFn_succ]; rfl
  have e := radialSum_ofFn r g v k
  rw [h] at e ⊢
  simp only [if_neg hv, if_neg hk, e]
  congr 1
  unfold structureFactor
  congr 1
  rw [← Finset.mul_sum]
  have : (⟨1, by omega⟩ : Fin (B + 2)) = 1 := rfl
  have h0 : (⟨0, by omega⟩ : Fin (B + 2)) = 0 := rfl
  rw [this, h0]
  have : ∀ j, (g j - 1) * r j * (Real.sin (k * r j) / k) = (g j - 1) * r j * Real.sin (k * r j) * k⁻¹ := by
    intro j; rw [div_eq_mul_inv]; ring
  simp only [this]
  rw [← Finset.sum_mul]
  rw [div_eq_mul_inv (4 * Real.pi * _) k]
  ring

theorem ssfLoop_ok (rdf : Rdf) (n : ℕ) (S : ℝ → ℝ) : ∀ xs : List ℝ,
    (∀ x ∈ xs, staticStructureFactor rdf x n = .ok (S x)) → ssfLoop rdf n xs = .ok (xs.map S)
  | [], _ => rfl
  | x :: xs, h => by
    rw [ssfLoop, h x List.mem_cons_self,
      ssfLoop_ok rdf n S xs (fun y hy => h y (List.mem_cons_of_mem _ hy))]
    rfl

theorem ssfLoop_head {rdf : Rdf} {n : ℕ} {x : ℝ} {xs ys : List ℝ} (h : ssfLoop rdf n (x :: xs) = .ok ys) :
    ∃ y, staticStructureFactor rdf x n = .ok y := by
  rw [ssfLoop] at h
  cases hx : staticStructureFactor rdf x n with
  | error e => rw [hx] at h; cases h
  | ok y => exact ⟨y, rfl⟩

/-- `argmaxFrom` gives the first maximum of the whole list. -/
theorem argmaxFrom_spec (l : List ℝ) : ∀ (ys : List ℝ) (i best : ℕ) (val : ℝ),
    (∀ j, ys[j]? = l[i + j]?) → best < i → l[best]? = some val →
    (∀ j < i, ∀ y, l[j]? = some y → y ≤ val) → (∀ j < best, ∀ y, l[j]? = some y → y < val) →
    ∃ v, l[argmaxFrom ys i best val]? = some v ∧ (∀ (j : ℕ) (y : ℝ), l[j]? = some y → y ≤ v) ∧
      ∀ j < argmaxFrom ys i best val, ∀ y, l[j]? = some y → y < v
  | [], i, best, val, h, hb, hv, hle, hlt => by
    refine ⟨val, hv, ?_, hlt⟩
    intro j y hy
    rcases Nat.lt_or_ge j i with h1 | h1
    · exact hle j h1 y hy
    · have := h (j - i)
      rw [show i + (j - i) = j by omega, hy] at this
      simp at this
  | y :: ys, i, best, val, h, hb, hv, hle, hlt => by
    have h0 : l[i]? = some y := by have := h 0; simpa using this.symm
    have hs : ∀ j, ys[j]? = l[i + 1 + j]? := by
      intro j
      have := h (j + 1)
      rw [List.getElem?_cons_succ] at this
      rw [this]; congr 1; omega
    rw [argmaxFrom]
    split
    · rename_i hyv
      refine argmaxFrom_spec l ys (i + 1) i y hs (by omega) h0 ?_ ?_
      · intro j hj z hz
        rcases Nat.lt_or_ge j i with h1 | h1
        · exact (hle j h1 z hz).trans hyv.le
        · obtain rfl : j = i := by omega
          rw [h0] at hz
          exact (Option.some.inj hz).ge
      · intro j hj z hz
        exact lt_of_le_of_lt (hle j hj z hz) hyv
    · rename_i hyv
      refine argmaxFrom_spec l ys (i + 1) best val hs (by omega) hv ?_ hlt
      intro j hj z hz
      rcases Nat.lt_or_ge j i with h1 | h1
      · exact hle j h1 z hz
      · obtain rfl : j = i := by omega
        rw [h0] at hz
        rw [← Option.some.inj hz]
        exact not_lt.1 hyv

theorem argmax_spec {l : List ℝ} (h : l ≠ []) : ∃ i v, argmax l = some i ∧ l[i]? = some v ∧
    (∀ (j : ℕ) (y : ℝ), l[j]? = some y → y ≤ v) ∧ ∀ j < i, ∀ y, l[j]? = some y → y < v := by
  cases l with
  | nil => exact absurd rfl h
  | cons y ys =>
    obtain ⟨v, h1, h2, h3⟩ := argmaxFrom_spec (y :: ys) ys 1 0 y
      (by intro j; rw [Nat.add_comm]; exact (List.getElem?_cons_succ).symm) (by omega) rfl
      (by intro j hj z hz; obtain rfl : j = 0 := by omega
          simp at hz; exact hz.ge) (by intro j hj; omega)
    exact ⟨_, v, rfl, h1, h2, h3⟩

theorem waveGrid_get {i : ℕ} (hi : i < 200) : waveGrid[i]? = some (1 / 2 + (i : ℝ) * (39 / 398)) := by
  unfold waveGrid
  rw [List.getElem?_map, List.getElem?_range hi]
  simp only [Option.map_some, Option.some.injEq]
  norm_num

theorem waveGrid_mem {x : ℝ} (h : x ∈ waveGrid) : 1 / 2 ≤ x ∧ x ≤ 20 := by
  obtain ⟨i, hi, rfl⟩ := List.getElem_of_mem h
  have hl : i < 200 := by simpa [waveGrid] using hi
  have e := waveGrid_get hl
  rw [List.getElem?_eq_getElem hi] at e
  rw [Option.some.inj e]
  have h1 : (0 : ℝ) ≤ i := Nat.cast_nonneg i
  have h2 : (i : ℝ) ≤ 199 := by exact_mod_cast (by omega : i ≤ 199)
  constructor <;> linarith

theorem waveGrid_length : waveGrid.length = 200 := by simp [waveGrid]

/-- The wave number is the first maximiser of `S` on the grid. -/
theorem calculate_spec {rdf : Box → ℝ → ℝ → List V3 → Except PyErr Rdf} {b : Box} {pos : List V3} {r : Rdf}
    (hr : rdf b (searchRadius b / 200) (searchRadius b) pos = .ok r) {S : ℝ → ℝ}
    (hS : ∀ x, 1 / 2 ≤ x → staticStructureFactor r x pos.length = .ok (S x)) :
    ∃ i : ℕ, i < 200 ∧ calculateWaveNumber rdf b pos = .ok (1 / 2 + (i : ℝ) * (39 / 398)) ∧
      (∀ j : ℕ, j < 200 → S (1 / 2 + (j : ℝ) * (39 / 398)) ≤ S (1 / 2 + (i : ℝ) * (39 / 398))) ∧
      (∀ j : ℕ, j < i → S (1 / 2 + (j : ℝ) * (39 / 398)) < S (1 / 2 + (i : ℝ) * (39 / 398))) := by
  have hl := ssfLoop_ok r pos.length S waveGrid (fun x hx => hS x (waveGrid_mem hx).1)
  have hne : waveGrid.map S ≠ [] := by
    intro h
    have := congrArg List.length h
    simp [waveGrid] at this
  obtain ⟨i, v, h1, h2, h3, h4⟩ := argmax_spec hne
  have hi : i < 200 := by
    have := (List.getElem?_eq_some_iff.1 h2).1
    simpa [waveGrid] using this
  have hget : ∀ j : ℕ, j < 200 → (waveGrid.map S)[j]? = some (S (1 / 2 + (j : ℝ) * (39 / 398))) := by
    intro j hj
    rw [List.getElem?_map, waveGrid_get hj, Option.map_some]
  rw [hget i hi] at h2
  obtain rfl := Option.some.inj h2
  refine ⟨i, hi, ?_, fun j hj => h3 j _ (hget j hj), fun j hj => h4 j hj _ (hget j (by omega))⟩
  unfold calculateWaveNumber
  rw [hr]
  simp only [hl, h1, waveGrid_get hi]

/-- `Rdf` with both arrays given as functions. -/
theorem rdf_ofFn (r : Rdf) (h : r.g.length = r.R.length) :
    r = ⟨List.ofFn (fun i : Fin r.R.length => r.R[i]), List.ofFn (fun i : Fin r.R.length => r.g[i.1]'(by
      have := i.2; omega)), r.volume⟩ := by
  cases r with
  | mk R g v =>
    simp only at h ⊢
    congr 1
    · simp
    · apply List.ext_getElem <;> simp [h]

/-! ## Expansions for small arguments -/

theorem sinc_bounds {y : ℝ} (h0 : 0 < y) (h1 : y ≤ 1) :
    1 - y ^ 2 / 6 - y ^ 4 / 100 ≤ Real.sin y / y ∧ Real.sin y / y ≤ 1 - y ^ 2 / 6 + y ^ 4 / 100 := by
  have h := Real.sin_bound (x := y) (by rw [abs_of_pos h0]; exact h1)
  rw [abs_of_pos h0, abs_le] at h
  constructor
  · rw [le_div_iff₀ h0]
    nlinarith [h.1]
  · rw [div_le_iff₀ h0]
    nlinarith [h.2]

theorem circle_bounds {x : ℝ} (h0 : 0 ≤ x) (h1 : x ≤ 1) :
    1 - x ^ 2 / 4 - x ^ 4 * (5 / 96) ≤ circleAverage x ∧
      circleAverage x ≤ 1 - x ^ 2 / 4 + x ^ 4 * (5 / 96) := by
  have hpi := Real.pi_pos
  have hb : ∀ θ : ℝ, |Real.cos (x * Real.cos θ) - (1 - (x * Real.cos θ) ^ 2 / 2)| ≤ x ^ 4 * (5 / 96) := by
    intro θ
    have hc := Real.abs_cos_le_one θ
    have hx : |x * Real.cos θ| ≤ x := by
      rw [abs_mul, abs_of_nonneg h0]
      exact mul_le_of_le_one_right h0 hc
    refine (Real.cos_bound (hx.trans h1)).trans ?_
    exact mul_le_mul_of_nonneg_right (pow_le_pow_left₀ (abs_nonneg _) hx 4) (by norm_num)
  have hi : ∫ θ in (0 : ℝ)..(2 * Real.pi), Real.cos θ ^ 2 = Real.pi := by
    rw [integral_cos_sq]; simp
  have hpoly : ∀ e : ℝ, ∫ θ in (0 : ℝ)..(2 * Real.pi), ((1 + e) - (x ^ 2 / 2) * Real.cos θ ^ 2) =
      2 * Real.pi * (1 - x ^ 2 / 4 + e) := by
    intro e
    rw [intervalIntegral.integral_sub, intervalIntegral.integral_const_mul, hi]
    · simp; ring
    · simp
    · exact (Continuous.intervalIntegrable (by fun_prop) _ _)
  have hc1 : IntervalIntegrable (fun θ => Real.cos (x * Real.cos θ)) MeasureTheory.volume 0 (2 * Real.pi) :=
    Continuous.intervalIntegrable (by fun_prop) _ _
  have hc2 : ∀ e : ℝ, IntervalIntegrable (fun θ => (1 + e) - (x ^ 2 / 2) * Real.cos θ ^ 2)
      MeasureTheory.volume 0 (2 * Real.pi) := fun e => Continuous.intervalIntegrable (by fun_prop) _ _
  unfold circleAverage
  constructor
  · rw [le_div_iff₀ (by positivity)]
    have := intervalIntegral.integral_mono_on (a := 0) (b := 2 * Real.pi) (by positivity)
      (hc2 (-(x ^ 4 * (5 / 96)))) hc1 (by
        intro θ _
        have := (abs_le.1 (hb θ)).1
        nlinarith [this])
    rw [hpoly] at this
    linarith
  · rw [div_le_iff₀ (by positivity)]
    have := intervalIntegral.integral_mono_on (a := 0) (b := 2 * Real.pi) (by positivity)
      hc1 (hc2 (x ^ 4 * (5 / 96))) (by
        intro θ _
        have := (abs_le.1 (hb θ)).2
        nlinarith [this])
    rw [hpoly] at this
    linarith

/-- The radial distribution function of the witness: nothing in the first bin, a little more than average
in the second. -/
noncomputable def wG (i : Fin 200) : ℝ := if i.1 = 0 then 0 else if i.1 = 1 then 51 / 50 else 1

/-- Sums with the witness have two terms. -/
theorem wG_sum (f : ℝ → ℝ) (w : ℝ) (r : Fin 200 → ℝ) :
    ∑ j, w * ((wG j - 1) * r j * f (r j)) =
      w * (-(r 0 * f (r 0)) + 1 / 50 * r 1 * f (r 1)) := by
  rw [← Finset.sum_subset (Finset.subset_univ {(0 : Fin 200), 1})]
  · rw [Finset.sum_pair (by decide)]
    have h0 : wG 0 = 0 := rfl
    have h1 : wG 1 = 51 / 50 := rfl
    rw [h0, h1]
    ring
  · intro j _ hj
    have : wG j = 1 := by
      unfold wG
      rw [if_neg, if_neg]
      · intro h; apply hj; simp [Fin.ext_iff, h]
      · intro h; apply hj; simp [Fin.ext_iff, h]
    rw [this]
    ring

/-- Shifting the directions by one changes the order only. -/
theorem sum_directions {res : ℕ} (hres : 0 < res) (f : ℝ → ℝ) (hf : ∀ x, f (x + 2 * Real.pi) = f x) :
    ∑ j : Fin res, f (2 * Real.pi * (j : ℕ) / res - 2 * Real.pi / res) =
      ∑ j : Fin res, f (2 * Real.pi * (j : ℕ) / res) := by
  obtain ⟨n, rfl⟩ : ∃ n, res = n + 1 := ⟨res - 1, by omega⟩
  have hn : ((n + 1 : ℕ) : ℝ) ≠ 0 := by positivity
  rw [Fin.sum_univ_succ, Fin.sum_univ_castSucc (f := fun j : Fin (n + 1) => f (2 * Real.pi * (j : ℕ) / ((n + 1 : ℕ) : ℝ)))]
  rw [add_comm]
  congr 1
  · apply Finset.sum_congr rfl
    intro j _
    congr 1
    simp only [Fin.val_succ, Fin.val_castSucc]
    push_cast
    field_simp
    ring
  · rw [← hf]
    congr 1
    simp only [Fin.val_zero, Fin.val_last, Nat.cast_zero]
    push_cast at hn ⊢
    field_simp
    ring

end Verif.Wave
