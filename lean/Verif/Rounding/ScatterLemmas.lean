import Mathlib.Algebra.BigOperators.Field
import Mathlib.Analysis.Real.Pi.Bounds
import Verif.Rounding.ScatterModel
import Verif.Rounding.ScatterSpec
import Verif.Rounding.NormLemmas
import Verif.Rounding.OverlapLemmas
import Verif.Dynamics.Spec
/-!
# Lemmas for the scattering function in float64
-/

namespace Verif.Rounding

open Verif.Motion Verif.Dynamics

theorem t53 : (2 : ℝ) ^ (-53 : ℤ) = 1 / 2 ^ 53 := by
  rw [zpow_neg]; norm_num

/-- Half of the smallest positive float64. -/
noncomputable def tiny : ℝ := 2 ^ (-1075 : ℤ)

theorem tiny_pos : 0 < tiny := zpow_pos (by norm_num) _

theorem t1075 : tiny ≤ 1 / 2 ^ 100 := by
  unfold tiny
  have : (2 : ℝ) ^ (-1075 : ℤ) ≤ 2 ^ (-100 : ℤ) := two_zpow_le (by norm_num)
  refine this.trans (le_of_eq ?_)
  rw [zpow_neg]; norm_num

theorem fl64_error' (x : ℝ) : |float64.fl x - x| ≤ |x| / 2 ^ 53 + tiny := by
  have := fl64_error x
  rw [t53] at this
  unfold tiny
  linarith

/-- The sum of float64 numbers of either sign. -/
theorem SumTree.error64 {l : List ℝ} {s : ℝ} (h : SumTree float64 l s) {M : ℝ} {n : ℕ} (hM : 1 ≤ M)
    (hn : n ≤ 2 ^ 40) (hl : ∀ x ∈ l, |x| ≤ M) (hln : l.length ≤ n) :
    |s - l.sum| ≤ ((l.length : ℝ) - 1) * (n * M / 2 ^ 52) ∧ |l.sum| ≤ l.length * M := by
  have hn' : (n : ℝ) ≤ 1099511627776 := by
    have : n ≤ 1099511627776 := by simpa using hn
    exact_mod_cast this
  induction h with
  | one x =>
    have := hl x (by simp)
    simp [this]
  | @add l l' a b h1 h2 ih1 ih2 =>
    have p1 : (1 : ℝ) ≤ l.length := by exact_mod_cast h1.ne_nil
    have p2 : (1 : ℝ) ≤ l'.length := by exact_mod_cast h2.ne_nil
    have hle : (l.length : ℝ) + l'.length ≤ n := by
      have : l.length + l'.length ≤ n := by simpa using hln
      exact_mod_cast this
    have q1 : l.length ≤ n := by rw [List.length_append] at hln; omega
    have q2 : l'.length ≤ n := by rw [List.length_append] at hln; omega
    obtain ⟨e1, s1⟩ := ih1 (fun x hx => hl x (by simp [hx])) q1
    obtain ⟨e2, s2⟩ := ih2 (fun x hx => hl x (by simp [hx])) q2
    rw [List.sum_append, List.length_append]
    push_cast
    set p : ℝ := (l.length : ℝ)
    set q : ℝ := (l'.length : ℝ)
    set c : ℝ := n * M / 2 ^ 52 with hc
    have hfl := fl64_error' (a + b)
    have t2 := t1075
    have hnpos : (2 : ℝ) ≤ n := by linarith
    have hcM : c ≤ M / 8 := by rw [hc]; norm_num; nlinarith
    have hc0 : 0 < c := by rw [hc]; positivity
    refine ⟨?_, ?_⟩
    · have hab : |a + b| ≤ (p + q) * M + (p + q - 2) * c := by
        calc |a + b| = |(a - l.sum) + (b - l'.sum) + (l.sum + l'.sum)| := by ring_nf
          _ ≤ |a - l.sum| + |b - l'.sum| + (|l.sum| + |l'.sum|) :=
            (abs_add_le _ _).trans (add_le_add (abs_add_le _ _) (abs_add_le _ _))
          _ ≤ _ := by linarith
      have hab2 : |a + b| ≤ n * M * (9 / 8) := by
        refine hab.trans ?_
        have x1 : (p + q) * M ≤ n * M := mul_le_mul_of_nonneg_right hle (by linarith)
        have x2 : (p + q - 2) * c ≤ n * (M / 8) := by
          apply mul_le_mul (by linarith) hcM hc0.le (by linarith)
        nlinarith
      have hfl2 : |float64.fl (a + b) - (a + b)| ≤ c := by
        have hnM : 2 ≤ n * M := by nlinarith
        rw [hc]
        have : |a + b| / 2 ^ 53 ≤ n * M * (9 / 8) / 2 ^ 53 := div_le_div_of_nonneg_right hab2 (by positivity)
        norm_num at this t2 hfl ⊢
        linarith
      calc |float64.fl (a + b) - (l.sum + l'.sum)| =
            |(float64.fl (a + b) - (a + b)) + ((a - l.sum) + (b - l'.sum))| := by ring_nf
        _ ≤ |float64.fl (a + b) - (a + b)| + (|a - l.sum| + |b - l'.sum|) :=
            (abs_add_le _ _).trans (add_le_add le_rfl (abs_add_le _ _))
        _ ≤ c + ((p - 1) * c + (q - 1) * c) := add_le_add hfl2 (add_le_add e1 e2)
        _ = (p + q - 1) * c := by ring
    · exact (abs_add_le _ _).trans (by linarith)
  | perm hp h ih =>
    rw [← hp.sum_eq, ← hp.length_eq]
    exact ih (fun x hx => hl x (hp.subset hx)) (by rw [hp.length_eq]; exact hln)

/-- Averages of numbers known up to `ε`, in float64. -/
theorem mean64_error {sum : List ℝ → ℝ} (hs : IsSum64 sum) {ι : Type} {l : List ι} {f g : ι → ℝ} {ε : ℝ}
    (hl : l ≠ []) (hn : l.length ≤ 2 ^ 40) (hf' : ∀ i ∈ l, |f i| ≤ 2)
    (h : ∀ i ∈ l, |f i - g i| ≤ ε) :
    |float64.fl (sum (l.map f) / (l.map f).length) - average l g| ≤ ε + l.length / 2 ^ 50 := by
  have hpos : 0 < l.length := List.length_pos_of_ne_nil hl
  have hn0 : (1 : ℝ) ≤ l.length := by exact_mod_cast hpos
  have hn1 : (l.length : ℝ) ≤ 1099511627776 := by
    have : l.length ≤ 1099511627776 := by simpa using hn
    exact_mod_cast this
  have hf : ∀ x ∈ l.map f, |x| ≤ 2 := by
    intro x hx
    obtain ⟨i, hi, rfl⟩ := List.mem_map.1 hx
    exact hf' i hi
  obtain ⟨e1, e2⟩ := (hs (l.map f) (by simpa using hl)).error64 (M := 2) (n := l.length) (by norm_num) hn hf
    (by simp)
  rw [List.length_map] at e1 e2 ⊢
  set s := sum (l.map f) with hsdef
  set n : ℝ := (l.length : ℝ) with hndef
  have hnp : (0 : ℝ) < n := by linarith
  have d1 : |s / n - (l.map f).sum / n| ≤ (n - 1) / 2 ^ 51 := by
    rw [← sub_div, abs_div, abs_of_pos hnp, div_le_iff₀ hnp]
    refine e1.trans (le_of_eq ?_)
    ring
  have d2 : |(l.map f).sum / n| ≤ 2 := by
    rw [abs_div, abs_of_pos hnp, div_le_iff₀ hnp]
    linarith
  have d3 : |s / n| ≤ 3 := by
    calc |s / n| = |(s / n - (l.map f).sum / n) + (l.map f).sum / n| := by ring_nf
      _ ≤ _ := abs_add_le _ _
      _ ≤ 3 := by norm_num at d1; linarith
  have f1 := fl64_error' (s / n)
  have t2 := t1075
  have f2 : |float64.fl (s / n) - s / n| ≤ 1 / 2 ^ 51 := by
    norm_num at f1 t2 ⊢
    linarith
  have d5 := average_error hl h
  unfold average at d5 ⊢
  rw [← hndef] at d5 ⊢
  calc |float64.fl (s / n) - (l.map g).sum / n| = |(float64.fl (s / n) - s / n) +
        ((s / n - (l.map f).sum / n) + ((l.map f).sum / n - (l.map g).sum / n))| := by ring_nf
    _ ≤ |float64.fl (s / n) - s / n| + (|s / n - (l.map f).sum / n| +
        |(l.map f).sum / n - (l.map g).sum / n|) :=
        (abs_add_le _ _).trans (add_le_add le_rfl (abs_add_le _ _))
    _ ≤ ε + n / 2 ^ 50 := by norm_num at f2 d1 ⊢; linarith

/-- The angles. -/
theorem angle64_error {res j : ℕ} (hj : j < res) (hres : res ≤ 2 ^ 20) :
    |angle64 res j - 2 * Real.pi * j / res| ≤ 1 / 2 ^ 48 := by
  have hr : (0 : ℝ) < res := by exact_mod_cast (by omega : 0 < res)
  have hr' : (res : ℝ) ≤ 1048576 := by
    have : res ≤ 1048576 := by simpa using hres
    exact_mod_cast this
  have hj' : (j : ℝ) ≤ res := by exact_mod_cast hj.le
  have hj0 : (0 : ℝ) ≤ j := Nat.cast_nonneg j
  have hpi := Real.pi_lt_d2
  have hpi0 := Real.pi_pos
  have t2 := t1075
  have f1 := fl64_error' Real.pi
  have f2 := fl64_error' (2 * float64.fl Real.pi)
  unfold angle64 twoPi64
  set p := float64.fl Real.pi
  set t := float64.fl (2 * p)
  have hp : |p - Real.pi| ≤ 4 / 2 ^ 53 := by
    rw [abs_of_pos hpi0] at f1
    norm_num at f1 t2 ⊢
    linarith
  have hp' : |p| ≤ 7 / 2 := by
    have := abs_le.1 hp
    rw [abs_le]
    norm_num at this ⊢
    constructor <;> linarith
  have ht : |t - 2 * p| ≤ 8 / 2 ^ 53 := by
    rw [abs_mul] at f2
    norm_num at f2 t2 ⊢
    linarith
  have ht1 : |t - 2 * Real.pi| ≤ 16 / 2 ^ 53 := by
    have a1 := abs_le.1 ht
    have a2 := abs_le.1 hp
    rw [abs_le]
    norm_num at a1 a2 ⊢
    constructor <;> linarith
  have ht2 : |t| ≤ 7 := by
    have := abs_le.1 ht1
    rw [abs_le]
    norm_num at this ⊢
    constructor <;> linarith
  have f3 := fl64_error' (t / res)
  set q := float64.fl (t / res)
  have hjq : |j * q - j * (t / res)| ≤ 8 / 2 ^ 53 := by
    rw [← mul_sub, abs_mul, abs_of_nonneg hj0]
    have b1 : j * |q - t / res| ≤ res * (|t / res| / 2 ^ 53 + tiny) :=
      mul_le_mul hj' f3 (abs_nonneg _) hr.le
    have b2 : (res : ℝ) * |t / res| = |t| := by
      rw [abs_div, abs_of_pos hr]
      field_simp
    have b3 : (res : ℝ) * tiny ≤ 1048576 * (1 / 2 ^ 100) :=
      mul_le_mul hr' t2 tiny_pos.le (by norm_num)
    have b4 : (res : ℝ) * (|t / res| / 2 ^ 53 + tiny) = |t| / 2 ^ 53 + res * tiny := by
      rw [mul_add, ← mul_div_assoc, b2]
    rw [b4] at b1
    refine b1.trans ?_
    norm_num at b3 ⊢
    linarith
  have hjt : |j * (t / res) - 2 * Real.pi * j / res| ≤ 16 / 2 ^ 53 := by
    rw [show j * (t / res) - 2 * Real.pi * j / res = (j / res) * (t - 2 * Real.pi) by ring, abs_mul,
      abs_of_nonneg (div_nonneg hj0 hr.le)]
    have : (j : ℝ) / res ≤ 1 := (div_le_one hr).2 hj'
    calc (j : ℝ) / res * |t - 2 * Real.pi| ≤ 1 * (16 / 2 ^ 53) :=
          mul_le_mul this ht1 (abs_nonneg _) (by norm_num)
      _ = _ := by ring
  have hjq' : |j * q| ≤ 15 / 2 := by
    have b1 : |(j : ℝ) * (t / res)| ≤ 7 := by
      rw [show (j : ℝ) * (t / res) = (j / res) * t by ring, abs_mul, abs_of_nonneg (div_nonneg hj0 hr.le)]
      have : (j : ℝ) / res ≤ 1 := (div_le_one hr).2 hj'
      calc (j : ℝ) / res * |t| ≤ 1 * 7 := mul_le_mul this ht2 (abs_nonneg _) (by norm_num)
        _ = _ := by ring
    have b2 := abs_le.1 hjq
    have b3 := abs_le.1 b1
    rw [abs_le]
    norm_num at b2 ⊢
    constructor <;> linarith
  have f4 := fl64_error' (j * q)
  set r := (j : ℝ) * q
  have f4' : |float64.fl r - r| ≤ 8 / 2 ^ 53 := by
    norm_num at f4 t2 ⊢
    linarith
  have a1 := abs_le.1 f4'
  have a2 := abs_le.1 hjq
  have a3 := abs_le.1 hjt
  rw [abs_le]
  norm_num at a1 a2 a3 ⊢
  constructor <;> linarith

/-- A component of a wave vector. -/
theorem wave64_error {f g : ℝ → ℝ} {δ k a a' : ℝ} (hf : IsFun64 δ f g) (hδ : δ ≤ 1 / 8) (ha : float64.Number a)
    (hg : |g a - g a'| ≤ 1 / 2 ^ 48) (hg1 : |g a'| ≤ 1) :
    |float64.fl (f a * k) - g a' * k| ≤ |k| * (δ + 1 / 2 ^ 47) + tiny := by
  have h1 := hf a ha
  have f1 := fl64_error' (f a * k)
  have h2 : |f a - g a'| ≤ δ + 1 / 2 ^ 48 := by
    have := abs_add_le (f a - g a) (g a - g a')
    rw [sub_add_sub_cancel] at this
    linarith
  have h3 : |f a| ≤ 2 := by
    have := abs_add_le (f a - g a') (g a')
    rw [sub_add_cancel] at this
    norm_num at h2
    linarith
  rw [abs_mul] at f1
  have h4 : |f a| * |k| ≤ 2 * |k| := mul_le_mul_of_nonneg_right h3 (abs_nonneg k)
  have h5 : |f a * k - g a' * k| ≤ (δ + 1 / 2 ^ 48) * |k| := by
    rw [← sub_mul, abs_mul]
    exact mul_le_mul_of_nonneg_right h2 (abs_nonneg k)
  have h6 := abs_add_le (float64.fl (f a * k) - f a * k) (f a * k - g a' * k)
  rw [sub_add_sub_cancel] at h6
  have h7 : |f a| * |k| / 2 ^ 53 ≤ 2 * |k| / 2 ^ 53 := div_le_div_of_nonneg_right h4 (by positivity)
  have h8 := abs_nonneg k
  have h9 : |k| * (δ + 1 / 2 ^ 47) = (δ + 1 / 2 ^ 48) * |k| + |k| / 2 ^ 48 := by ring
  rw [h9]
  norm_num at h7 h6 h5 f1 ⊢
  linarith

/-- A product of two terms. -/
theorem dot64_error {dot : ℝ × ℝ → ℝ × ℝ → ℝ} (hd : IsDot dot) (w v : ℝ × ℝ) :
    |dot w v - (w.1 * v.1 + w.2 * v.2)| ≤ (|w.1 * v.1| + |w.2 * v.2|) / 2 ^ 51 + 2 ^ (-1072 : ℤ) := by
  have f1 := fl64_error' (w.1 * v.1)
  have f2 := fl64_error' (w.2 * v.2)
  set a := w.1 * v.1
  set b := w.2 * v.2
  have ht : (2 : ℝ) ^ (-1072 : ℤ) = 8 * tiny := by
    unfold tiny
    rw [show (-1072 : ℤ) = 3 + (-1075) by norm_num, zpow_add₀ (by norm_num)]
    norm_num
  have hu := tiny_pos
  have main : ∀ a' b' : ℝ, |a' - a| ≤ |a| / 2 ^ 53 + tiny → |b' - b| ≤ |b| / 2 ^ 53 + tiny →
      |float64.fl (a' + b') - (a + b)| ≤ (|a| + |b|) / 2 ^ 51 + 2 ^ (-1072 : ℤ) := by
    intro a' b' ha hb
    have f3 := fl64_error' (a' + b')
    have h1 := abs_add_le (a' - a) a
    have h2 := abs_add_le (b' - b) b
    have h3 := abs_add_le a' b'
    have h4 := abs_add_le (float64.fl (a' + b') - (a' + b')) ((a' - a) + (b' - b))
    have h5 := abs_add_le (a' - a) (b' - b)
    rw [sub_add_cancel] at h1 h2
    rw [show float64.fl (a' + b') - (a' + b') + ((a' - a) + (b' - b)) = float64.fl (a' + b') - (a + b) by ring] at h4
    have h6 := abs_nonneg a
    have h7 := abs_nonneg b
    rw [ht]
    set t := tiny
    have h8 : |a' + b'| ≤ 2 * (|a| + |b|) + 2 * t := by
      norm_num at ha hb
      linarith
    have h9 : |a' + b'| / 2 ^ 53 ≤ (2 * (|a| + |b|) + 2 * t) / 2 ^ 53 := div_le_div_of_nonneg_right h8 (by positivity)
    norm_num at h9 ha hb f3 ⊢
    linarith
  have z (x : ℝ) : |x - x| ≤ |x| / 2 ^ 53 + tiny := by
    rw [sub_self, abs_zero]
    exact add_nonneg (by positivity) hu.le
  rcases hd w v with e | e | e <;> rw [e]
  · exact main _ _ f1 f2
  · exact main _ _ (z a) f2
  · exact main _ _ f1 (z b)

theorem avg_avg {res N : ℕ} (g : ℕ → Fin N → ℝ) :
    average ((List.range res).flatMap (fun j => (List.finRange N).map (fun m => (j, m)))) (fun p => g p.1 p.2) =
      avg (fun j : Fin res => avg (fun m => g j m)) := by
  have h1 : (((List.range res).flatMap (fun j => (List.finRange N).map (fun m => (j, m)))).map
      (fun p => g p.1 p.2)).sum = ∑ j : Fin res, ∑ m, g j m := by
    rw [List.map_flatMap, ← Finset.sum_range (fun j => ∑ m, g j m)]
    induction res with
    | zero => simp
    | succ n ih =>
      rw [List.range_succ, List.flatMap_append, List.sum_append, ih, Finset.sum_range_succ]
      congr 1
      simp [List.map_map, Function.comp_def, Fin.univ_def, Finset.sum]
  have h2 : ((List.range res).flatMap (fun j => (List.finRange N).map (fun m => (j, m)))).length = res * N := by
    simp [List.length_flatMap]
  unfold average avg
  rw [h1, h2, ← Finset.sum_div, div_div, Nat.cast_mul, mul_comm (N : ℝ)]

/-- The argument of the cosine. -/
theorem phase_error {cos64 sin64 : ℝ → ℝ} {dot : ℝ × ℝ → ℝ × ℝ → ℝ} {δ k R η : ℝ} {res j : ℕ}
    (hc : IsFun64 δ cos64 Real.cos) (hsn : IsFun64 δ sin64 Real.sin) (hδ : δ ≤ 1 / 8) (hd : IsDot dot)
    (hj : j < res) (hres : res ≤ 2 ^ 20) (v D : ℝ × ℝ) (hv : |v.1| + |v.2| ≤ R) (h1 : |v.1 - D.1| ≤ η)
    (h2 : |v.2 - D.2| ≤ η) :
    |dot (float64.fl (cos64 (angle64 res j) * k), float64.fl (sin64 (angle64 res j) * k)) v -
        k * (Real.cos (2 * Real.pi * j / res) * D.1 + Real.sin (2 * Real.pi * j / res) * D.2)| ≤
      |k| * R * (δ + 1 / 2 ^ 46) + 2 * |k| * η + 2 ^ (-1000 : ℤ) * (R + 1) := by
  have ha := angle64_error hj hres
  have hn : float64.Number (angle64 res j) := fl_number float64 _
  set a := angle64 res j
  set θ := 2 * Real.pi * j / res
  have w1 := wave64_error (k := k) hc hδ hn ((Real.abs_cos_sub_cos_le a θ).trans ha) (Real.abs_cos_le_one θ)
  have w2 := wave64_error (k := k) hsn hδ hn ((Real.abs_sin_sub_sin_le a θ).trans ha) (Real.abs_sin_le_one θ)
  have e := dot64_error hd (float64.fl (cos64 a * k), float64.fl (sin64 a * k)) v
  set p := float64.fl (cos64 a * k)
  set q := float64.fl (sin64 a * k)
  dsimp only at e
  have hk := abs_nonneg k
  have x0 := abs_nonneg v.1
  have y0 := abs_nonneg v.2
  have hδ0 : 0 ≤ δ := (abs_nonneg _).trans (hc _ hn)
  have ht := tiny_pos
  have big : ∀ {r g : ℝ}, |r - g * k| ≤ |k| * (δ + 1 / 2 ^ 47) + tiny → |g| ≤ 1 → |r| ≤ 2 * |k| + tiny := by
    intro r g h hg
    have := abs_add_le (r - g * k) (g * k)
    rw [sub_add_cancel, abs_mul] at this
    have h3 : |g| * |k| ≤ 1 * |k| := mul_le_mul_of_nonneg_right hg hk
    have h4 : |k| * (δ + 1 / 2 ^ 47) ≤ |k| * 1 := mul_le_mul_of_nonneg_left (by norm_num; linarith) hk
    linarith
  have hp := big w1 (Real.abs_cos_le_one θ)
  have hq := big w2 (Real.abs_sin_le_one θ)
  have m1 : |p * v.1| ≤ (2 * |k| + tiny) * |v.1| := by rw [abs_mul]; exact mul_le_mul_of_nonneg_right hp x0
  have m2 : |q * v.2| ≤ (2 * |k| + tiny) * |v.2| := by rw [abs_mul]; exact mul_le_mul_of_nonneg_right hq y0
  have m3 : |p * v.1| + |q * v.2| ≤ (2 * |k| + tiny) * R := by
    have : (2 * |k| + tiny) * (|v.1| + |v.2|) ≤ (2 * |k| + tiny) * R :=
      mul_le_mul_of_nonneg_left hv (by linarith)
    linarith
  have m4 : (|p * v.1| + |q * v.2|) / 2 ^ 51 ≤ (2 * |k| + tiny) * R / 2 ^ 51 :=
    div_le_div_of_nonneg_right m3 (by positivity)
  have n1 : |(p - Real.cos θ * k) * v.1| ≤ (|k| * (δ + 1 / 2 ^ 47) + tiny) * |v.1| := by
    rw [abs_mul]; exact mul_le_mul_of_nonneg_right w1 x0
  have n2 : |(q - Real.sin θ * k) * v.2| ≤ (|k| * (δ + 1 / 2 ^ 47) + tiny) * |v.2| := by
    rw [abs_mul]; exact mul_le_mul_of_nonneg_right w2 y0
  have n3 : (|k| * (δ + 1 / 2 ^ 47) + tiny) * (|v.1| + |v.2|) ≤ (|k| * (δ + 1 / 2 ^ 47) + tiny) * R :=
    mul_le_mul_of_nonneg_left hv (add_nonneg (mul_nonneg hk (by positivity)) ht.le)
  have o (g x : ℝ) (hg : |g| ≤ 1) (hx : |x| ≤ η) : |g * k * x| ≤ |k| * η := by
    rw [abs_mul, abs_mul]
    exact mul_le_mul (by nlinarith) hx (abs_nonneg _) hk
  have o1 := o _ _ (Real.abs_cos_le_one θ) h1
  have o2 := o _ _ (Real.abs_sin_le_one θ) h2
  have split : dot (p, q) v - k * (Real.cos θ * D.1 + Real.sin θ * D.2) =
      (dot (p, q) v - (p * v.1 + q * v.2)) + (((p - Real.cos θ * k) * v.1 + (q - Real.sin θ * k) * v.2) +
        (Real.cos θ * k * (v.1 - D.1) + Real.sin θ * k * (v.2 - D.2))) := by ring
  have s1 := abs_add_le (dot (p, q) v - (p * v.1 + q * v.2)) (((p - Real.cos θ * k) * v.1 + (q - Real.sin θ * k) * v.2) +
        (Real.cos θ * k * (v.1 - D.1) + Real.sin θ * k * (v.2 - D.2)))
  have s2 := abs_add_le ((p - Real.cos θ * k) * v.1 + (q - Real.sin θ * k) * v.2)
        (Real.cos θ * k * (v.1 - D.1) + Real.sin θ * k * (v.2 - D.2))
  have s3 := abs_add_le ((p - Real.cos θ * k) * v.1) ((q - Real.sin θ * k) * v.2)
  have s4 := abs_add_le (Real.cos θ * k * (v.1 - D.1)) (Real.sin θ * k * (v.2 - D.2))
  rw [← split] at s1
  have hR : 0 ≤ R := by linarith
  have t1 : 2 * tiny ≤ 2 ^ (-1000 : ℤ) := by
    unfold tiny
    have h : (2 : ℝ) * 2 ^ (-1075 : ℤ) = 2 ^ (-1074 : ℤ) := by
      rw [show (-1074 : ℤ) = 1 + (-1075) by norm_num, zpow_add₀ (by norm_num)]
      norm_num
    rw [h]
    exact two_zpow_le (by norm_num)
  have t2 : (2 : ℝ) ^ (-1072 : ℤ) ≤ 2 ^ (-1000 : ℤ) := two_zpow_le (by norm_num)
  have t3 : 2 * tiny * R ≤ 2 ^ (-1000 : ℤ) * R := mul_le_mul_of_nonneg_right t1 hR
  have t4 : 0 ≤ tiny * R := mul_nonneg ht.le hR
  have t5 : 0 ≤ |k| * R := mul_nonneg hk hR
  generalize (2 : ℝ) ^ (-1000 : ℤ) = τ at *
  generalize (2 : ℝ) ^ (-1072 : ℤ) = τ' at *
  have c1 : (2 * |k| + tiny) * R / 2 ^ 51 = |k| * R / 2 ^ 50 + tiny * R / 2 ^ 51 := by ring
  have c2 : (|k| * (δ + 1 / 2 ^ 47) + tiny) * R = |k| * R * δ + |k| * R / 2 ^ 47 + tiny * R := by ring
  have c3 : |k| * R * (δ + 1 / 2 ^ 46) = |k| * R * δ + |k| * R / 2 ^ 46 := by ring
  rw [c1] at m4
  rw [c2] at n3
  rw [c3]
  set y := |k| * R
  set z := tiny * R with hz
  have t3' : 2 * z ≤ τ * R := by rw [hz]; linarith
  generalize y * δ = yδ at *
  norm_num at m4 n3 ⊢
  linarith

/-- The scattering function of displacements known up to `η`. -/
theorem isf64_error {cos64 sin64 : ℝ → ℝ} {dot : ℝ × ℝ → ℝ × ℝ → ℝ} {sum : List ℝ → ℝ} {δ k R η : ℝ} {res N : ℕ}
    (hs : IsSum64 sum) (hc : IsFun64 δ cos64 Real.cos) (hsn : IsFun64 δ sin64 Real.sin) (hδ : δ ≤ 1 / 8)
    (hd : IsDot dot) (hres0 : 0 < res) (hres : res ≤ 2 ^ 20) (hN0 : 0 < N) (hN : N ≤ 2 ^ 20) (d D : Fin N → V3)
    (hR : ∀ m, |(d m).1| + |(d m).2.1| ≤ R) (h1 : ∀ m, |(d m).1 - (D m).1| ≤ η)
    (h2 : ∀ m, |(d m).2.1 - (D m).2.1| ≤ η) :
    |isf64 cos64 sin64 dot sum k res (List.ofFn d) - avg (fun j : Fin res => avg (fun m =>
        Real.cos (k * (Real.cos (2 * Real.pi * j / res) * (D m).1 +
          Real.sin (2 * Real.pi * j / res) * (D m).2.1))))| ≤
      (|k| * R + 1) * (δ + 1 / 2 ^ 46) + 2 * |k| * η + 2 ^ (-1000 : ℤ) * (R + 1) + res * N / 2 ^ 50 := by
  set pairs := (List.range res).flatMap (fun j => (List.finRange N).map (fun m => (j, m))) with hpairs
  set f : ℕ × Fin N → ℝ := fun p => cos64 (dot (float64.fl (cos64 (angle64 res p.1) * k),
    float64.fl (sin64 (angle64 res p.1) * k)) ((d p.2).1, (d p.2).2.1)) with hf
  have e : (waveVectors64 cos64 sin64 k res).flatMap (fun w =>
      (List.ofFn d).map (fun d => cos64 (dot w (d.1, d.2.1)))) = pairs.map f := by
    rw [hpairs, List.map_flatMap, waveVectors64, List.flatMap_map, List.ofFn_eq_map]
    simp only [List.map_map]
    rfl
  have hlen : pairs.length = res * N := by
    rw [hpairs]
    simp [List.length_flatMap]
  have hnum (w v) : float64.Number (dot w v) := by
    rcases hd w v with h | h | h <;> rw [h] <;> exact fl_number float64 _
  have key := mean64_error hs (l := pairs) (f := f) (g := fun p => Real.cos (k *
      (Real.cos (2 * Real.pi * p.1 / res) * (D p.2).1 + Real.sin (2 * Real.pi * p.1 / res) * (D p.2).2.1)))
    (ε := δ + (|k| * R * (δ + 1 / 2 ^ 46) + 2 * |k| * η + 2 ^ (-1000 : ℤ) * (R + 1)))
    (by
      intro h
      rw [h, List.length_nil] at hlen
      have := Nat.mul_pos hres0 hN0
      omega)
    (by
      rw [hlen]
      calc res * N ≤ 2 ^ 20 * 2 ^ 20 := Nat.mul_le_mul hres hN
        _ = 2 ^ 40 := by norm_num)
    (fun p _ => by
      have a1 := hc _ (hnum (float64.fl (cos64 (angle64 res p.1) * k),
        float64.fl (sin64 (angle64 res p.1) * k)) ((d p.2).1, (d p.2).2.1))
      have a2 := Real.abs_cos_le_one (dot (float64.fl (cos64 (angle64 res p.1) * k),
        float64.fl (sin64 (angle64 res p.1) * k)) ((d p.2).1, (d p.2).2.1))
      have a3 := abs_add_le (f p - Real.cos (dot (float64.fl (cos64 (angle64 res p.1) * k),
        float64.fl (sin64 (angle64 res p.1) * k)) ((d p.2).1, (d p.2).2.1)))
        (Real.cos (dot (float64.fl (cos64 (angle64 res p.1) * k),
        float64.fl (sin64 (angle64 res p.1) * k)) ((d p.2).1, (d p.2).2.1)))
      rw [sub_add_cancel] at a3
      simp only [hf] at a3 ⊢
      linarith)
    (fun p hp => by
      have hj : p.1 < res := by
        rw [hpairs, List.mem_flatMap] at hp
        obtain ⟨j, hj, hm⟩ := hp
        obtain ⟨m, -, rfl⟩ := List.mem_map.1 hm
        exact List.mem_range.1 hj
      have a1 := hc _ (hnum (float64.fl (cos64 (angle64 res p.1) * k),
        float64.fl (sin64 (angle64 res p.1) * k)) ((d p.2).1, (d p.2).2.1))
      have a2 := phase_error (k := k) hc hsn hδ hd hj hres ((d p.2).1, (d p.2).2.1) ((D p.2).1, (D p.2).2.1)
        (hR p.2) (h1 p.2) (h2 p.2)
      simp only [hf]
      dsimp only at a2
      set x := dot (float64.fl (cos64 (angle64 res p.1) * k),
        float64.fl (sin64 (angle64 res p.1) * k)) ((d p.2).1, (d p.2).2.1)
      set y := k * (Real.cos (2 * Real.pi * p.1 / res) * (D p.2).1 +
        Real.sin (2 * Real.pi * p.1 / res) * (D p.2).2.1)
      have a3 := Real.abs_cos_sub_cos_le x y
      have a4 := abs_add_le (cos64 x - Real.cos x) (Real.cos x - Real.cos y)
      rw [sub_add_sub_cancel] at a4
      linarith)
  rw [hlen] at key
  rw [hpairs, avg_avg (fun j m => Real.cos (k * (Real.cos (2 * Real.pi * j / res) * (D m).1 +
    Real.sin (2 * Real.pi * j / res) * (D m).2.1))), ← hpairs] at key
  unfold isf64
  simp only [e]
  refine key.trans ?_
  push_cast
  have : (|k| * R + 1) * (δ + 1 / 2 ^ 46) = δ + |k| * R * (δ + 1 / 2 ^ 46) + 1 / 2 ^ 46 := by ring
  rw [this]
  have : (0 : ℝ) < 1 / 2 ^ 46 := by positivity
  linarith

/-- Integers up to 2⁵³ are float64. -/
theorem fl64_nat {n : ℕ} (hn : n ≤ 2 ^ 53) : float64.fl n = n := by
  apply fl_exact float64 (by norm_num [float64])
  have := number_mul float64 (m := n) (e := 0) (by
    rw [Nat.abs_cast]
    exact_mod_cast hn) (by norm_num [float64])
  simpa using this

/-- Sums of numbers between -1 and 1 stay below their number. -/
theorem SumTree.unit {l : List ℝ} {s : ℝ} (h : SumTree float64 l s) (hl : ∀ x ∈ l, |x| ≤ 1)
    (hn : l.length ≤ 2 ^ 53) : |s| ≤ l.length := by
  induction h with
  | one x => simpa using hl x (by simp)
  | @add l l' a b h1 h2 ih1 ih2 =>
    rw [List.length_append] at hn ⊢
    have e1 := abs_le.1 (ih1 (fun x hx => hl x (by simp [hx])) (by omega))
    have e2 := abs_le.1 (ih2 (fun x hx => hl x (by simp [hx])) (by omega))
    have m {x y : ℝ} (h : x ≤ y) : float64.fl x ≤ float64.fl y :=
      (fl_nearest float64 (by norm_num [float64])).mono h
    rw [abs_le]
    constructor
    · have := m (x := -((l.length + l'.length : ℕ) : ℝ)) (y := a + b) (by push_cast; linarith)
      rwa [fl_neg, fl64_nat hn] at this
    · have := m (x := a + b) (y := ((l.length + l'.length : ℕ) : ℝ)) (by push_cast; linarith)
      rwa [fl64_nat hn] at this
  | perm hp h ih =>
    rw [← hp.length_eq]
    exact ih (fun x hx => hl x (hp.subset hx)) (by rw [hp.length_eq]; exact hn)

/-- A sum of ones is exact. -/
theorem SumTree.ones {l : List ℝ} {s : ℝ} (h : SumTree float64 l s) (hl : ∀ x ∈ l, x = 1)
    (hn : l.length ≤ 2 ^ 53) : s = l.length := by
  induction h with
  | one x => simpa using hl x (by simp)
  | @add l l' a b h1 h2 ih1 ih2 =>
    rw [List.length_append] at hn ⊢
    rw [ih1 (fun x hx => hl x (by simp [hx])) (by omega), ih2 (fun x hx => hl x (by simp [hx])) (by omega),
      ← Nat.cast_add, fl64_nat hn]
  | perm hp h ih =>
    rw [← hp.length_eq]
    exact ih (fun x hx => hl x (hp.subset hx)) (by rw [hp.length_eq]; exact hn)

/-- Adding from the left, in float64. -/
noncomputable def sumLeft64 : List ℝ → ℝ
  | [] => 0
  | x :: xs => xs.foldl (fun a b => float64.fl (a + b)) x

theorem sumLeft64_sum : IsSum64 sumLeft64 := by
  have h : ∀ (xs l : List ℝ) (a : ℝ), SumTree float64 l a →
      SumTree float64 (l ++ xs) (xs.foldl (fun a b => float64.fl (a + b)) a) := by
    intro xs
    induction xs with
    | nil => intro l a h; simpa using h
    | cons x xs ih =>
      intro l a h
      have := ih (l ++ [x]) _ (h.add (.one x))
      simpa using this
  intro l hl
  cases l with
  | nil => exact absurd rfl hl
  | cons x xs => exact h xs [x] x (.one x)

theorem fl64_one : float64.fl 1 = 1 := by simpa using fl64_nat (n := 1) (by norm_num)

end Verif.Rounding
