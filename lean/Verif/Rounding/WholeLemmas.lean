import Verif.Rounding.NormLemmas
import Verif.Rounding.TrackExample
/-!
# Lemmas on errors of lengths and averages without conditions on how small numbers are
-/

namespace Verif.Rounding

open Verif.Motion Verif.Dynamics

variable {sum : List ℝ → ℝ}

/-- Rounding to float32. -/
theorem fl32_rel (x : ℝ) : |float32.fl x - x| ≤ 1 / 16777216 * |x| + 2 ^ (-150 : ℤ) := by
  have := fl_rel float32 x
  rwa [show -((float32.digits : ℕ) : ℤ) = -24 from rfl, show float32.emin - 1 = -150 from rfl,
    show (2 : ℝ) ^ (-24 : ℤ) = 1 / 16777216 by norm_num] at this

theorem fl32_pos {x : ℝ} (hx : 0 ≤ x) : 0 ≤ float32.fl x := by
  have h := (fl_nearest float32 (by decide)).mono hx
  rwa [fl_zero] at h

/-- A sum of numbers that are not negative. -/
theorem SumTree.bounds {l : List ℝ} {s : ℝ} (h : SumTree float32 l s) (hl : ∀ x ∈ l, 0 ≤ x) :
    0 ≤ s ∧ ∀ k, l.length = k + 1 →
      s ≤ (1 + 1 / 16777216) ^ k * (l.sum + k * 2 ^ (-150 : ℤ)) ∧
      (1 - 1 / 16777216) ^ k * l.sum - k * 2 ^ (-150 : ℤ) ≤ s := by
  have ht : (0 : ℝ) < 2 ^ (-150 : ℤ) := zpow_pos (by norm_num) _
  induction h with
  | one x =>
    refine ⟨hl x (by simp), fun k hk => ?_⟩
    obtain rfl : k = 0 := by simpa using hk
    simp
  | @add l l' a b h1 h2 ih1 ih2 =>
    obtain ⟨a0, ha⟩ := ih1 (fun x hx => hl x (by simp [hx]))
    obtain ⟨b0, hb⟩ := ih2 (fun x hx => hl x (by simp [hx]))
    have s1 : 0 ≤ l.sum := List.sum_nonneg (fun x hx => hl x (by simp [hx]))
    have s2 : 0 ≤ l'.sum := List.sum_nonneg (fun x hx => hl x (by simp [hx]))
    refine ⟨fl32_pos (by linarith), fun k hk => ?_⟩
    obtain ⟨p, hp⟩ : ∃ p, l.length = p + 1 := ⟨l.length - 1, by have := h1.ne_nil; omega⟩
    obtain ⟨q, hq⟩ : ∃ q, l'.length = q + 1 := ⟨l'.length - 1, by have := h2.ne_nil; omega⟩
    obtain rfl : k = p + q + 1 := by rw [List.length_append] at hk; omega
    obtain ⟨a1, a2⟩ := ha p hp
    obtain ⟨b1, b2⟩ := hb q hq
    obtain ⟨f1, f2⟩ := abs_le.1 (fl32_rel (a + b))
    rw [abs_of_nonneg (by linarith)] at f1 f2
    generalize (2 : ℝ) ^ (-150 : ℤ) = t at *
    rw [List.sum_append]
    push_cast
    have hp0 : (0 : ℝ) ≤ p := Nat.cast_nonneg p
    have hq0 : (0 : ℝ) ≤ q := Nat.cast_nonneg q
    constructor
    · have c1 : (1 + 1 / 16777216 : ℝ) ^ p ≤ (1 + 1 / 16777216) ^ (p + q) :=
        pow_le_pow_right₀ (by norm_num) (by omega)
      have c2 : (1 + 1 / 16777216 : ℝ) ^ q ≤ (1 + 1 / 16777216) ^ (p + q) :=
        pow_le_pow_right₀ (by norm_num) (by omega)
      have c3 : (1 : ℝ) ≤ (1 + 1 / 16777216 : ℝ) ^ (p + q + 1) := one_le_pow₀ (by norm_num)
      have x1 := mul_le_mul_of_nonneg_right c1 (show 0 ≤ l.sum + p * t by positivity)
      have x2 := mul_le_mul_of_nonneg_right c2 (show 0 ≤ l'.sum + q * t by positivity)
      have x3 := mul_le_mul_of_nonneg_right c3 ht.le
      have x4 : a + b ≤ (1 + 1 / 16777216) ^ (p + q) * ((l.sum + p * t) + (l'.sum + q * t)) := by
        rw [mul_add]; linarith
      calc float32.fl (a + b) ≤ (1 + 1 / 16777216) * (a + b) + t := by linarith
        _ ≤ (1 + 1 / 16777216) * ((1 + 1 / 16777216) ^ (p + q) * ((l.sum + p * t) + (l'.sum + q * t))) +
            (1 + 1 / 16777216) ^ (p + q + 1) * t := by
          have := mul_le_mul_of_nonneg_left x4 (show (0 : ℝ) ≤ 1 + 1 / 16777216 by norm_num)
          linarith
        _ = _ := by ring
    · have c1 : (1 - 1 / 16777216 : ℝ) ^ (p + q) ≤ (1 - 1 / 16777216) ^ p :=
        pow_le_pow_of_le_one (by norm_num) (by norm_num) (by omega)
      have c2 : (1 - 1 / 16777216 : ℝ) ^ (p + q) ≤ (1 - 1 / 16777216) ^ q :=
        pow_le_pow_of_le_one (by norm_num) (by norm_num) (by omega)
      have x1 := mul_le_mul_of_nonneg_right c1 s1
      have x2 := mul_le_mul_of_nonneg_right c2 s2
      have x4 : (1 - 1 / 16777216) ^ (p + q) * (l.sum + l'.sum) - (p + q) * t ≤ a + b := by
        rw [mul_add]; linarith
      have x5 := mul_le_mul_of_nonneg_left x4 (show (0 : ℝ) ≤ 1 - 1 / 16777216 by norm_num)
      have x6 : (0 : ℝ) ≤ (p + q) * t := by positivity
      calc (1 - 1 / 16777216 : ℝ) ^ (p + q + 1) * (l.sum + l'.sum) - (p + q + 1) * t =
            (1 - 1 / 16777216) * ((1 - 1 / 16777216) ^ (p + q) * (l.sum + l'.sum) - (p + q) * t) -
              1 / 16777216 * ((p + q) * t) - t := by ring
        _ ≤ (1 - 1 / 16777216) * (a + b) - t := by linarith
        _ ≤ _ := by linarith
  | perm hp h ih =>
    rw [← hp.sum_eq, ← hp.length_eq]
    exact ih (fun x hx => hl x (hp.subset hx))

/-- The sum of squares. -/
theorem sq32_error (hs : IsSum sum) (v : V3) :
    0 ≤ sq32 sum v ∧ |sq32 sum v - lenSq v| ≤ 1 / 4194304 * lenSq v + 2 ^ (-147 : ℤ) := by
  have ht : (0 : ℝ) < 2 ^ (-150 : ℤ) := zpow_pos (by norm_num) _
  have e8 : (2 : ℝ) ^ (-147 : ℤ) = 8 * 2 ^ (-150 : ℤ) := by
    rw [show (-147 : ℤ) = 3 + -150 by norm_num, zpow_add₀ (by norm_num)]
    norm_num
  have sqr (x : ℝ) : 0 ≤ square32 x ∧ |square32 x - x ^ 2| ≤ 1 / 16777216 * x ^ 2 + 2 ^ (-150 : ℤ) := by
    have h := fl32_rel (x * x)
    rw [abs_of_nonneg (mul_self_nonneg x)] at h
    unfold square32
    refine ⟨fl32_pos (mul_self_nonneg x), ?_⟩
    rwa [← pow_two] at h ⊢
  obtain ⟨x0, x1⟩ := sqr v.1
  obtain ⟨y0, y1⟩ := sqr v.2.1
  obtain ⟨z0, z1⟩ := sqr v.2.2
  rw [abs_le] at x1 y1 z1
  obtain ⟨h0, h⟩ := (hs [square32 v.1, square32 v.2.1, square32 v.2.2] (by simp)).bounds (by
    intro x hx
    simp only [List.mem_cons, List.not_mem_nil, or_false] at hx
    rcases hx with rfl | rfl | rfl <;> assumption)
  obtain ⟨u1, u2⟩ := h 2 (by simp)
  refine ⟨h0, ?_⟩
  unfold sq32 lenSq
  rw [e8]
  simp only [List.sum_cons, List.sum_nil, add_zero] at u1 u2
  generalize (2 : ℝ) ^ (-150 : ℤ) = t at *
  have p1 := sq_nonneg v.1
  have p2 := sq_nonneg v.2.1
  have p3 := sq_nonneg v.2.2
  rw [abs_le]
  push_cast at u1 u2
  norm_num at u1 u2
  constructor <;> linarith

/-- The length. -/
theorem norm32_error (hs : IsSum sum) (v : V3) :
    |norm32 sum v - length3 v| ≤ 1 / 2097152 * length3 v + 2 ^ (-72 : ℤ) := by
  obtain ⟨h0, h⟩ := sq32_error hs v
  obtain ⟨h1, h2⟩ := abs_le.1 h
  have hS := lenSq_nonneg v
  have hL := length3_nonneg v
  have e73 : Real.sqrt (2 ^ (-147 : ℤ)) ≤ 2 ^ (-73 : ℤ) := by
    rw [Real.sqrt_le_left (zpow_nonneg (by norm_num) _), ← zpow_natCast, ← zpow_mul]
    exact two_zpow_le (by norm_num)
  have e72 : (2 : ℝ) ^ (-72 : ℤ) = 2 * 2 ^ (-73 : ℤ) := by
    rw [show (-72 : ℤ) = 1 + -73 by norm_num, zpow_add₀ (by norm_num)]
    norm_num
  have e150 : (2 : ℝ) ^ (-150 : ℤ) ≤ 1 / 16777216 * 2 ^ (-73 : ℤ) := by
    have : (2 : ℝ) ^ (-150 : ℤ) ≤ 2 ^ (-97 : ℤ) := two_zpow_le (by norm_num)
    refine this.trans (le_of_eq ?_)
    rw [show (-97 : ℤ) = -24 + -73 by norm_num, zpow_add₀ (by norm_num)]
    norm_num
  have hL2 : length3 v ^ 2 = lenSq v := Real.sq_sqrt hS
  set L := length3 v with hLdef
  set r := Real.sqrt (sq32 sum v) with hr
  have hr0 : 0 ≤ r := Real.sqrt_nonneg _
  have hr2 : r ^ 2 = sq32 sum v := Real.sq_sqrt h0
  have hβ0 : 0 ≤ Real.sqrt (2 ^ (-147 : ℤ)) := Real.sqrt_nonneg _
  have hβ2 : Real.sqrt (2 ^ (-147 : ℤ)) ^ 2 = 2 ^ (-147 : ℤ) := Real.sq_sqrt (zpow_nonneg (by norm_num) _)
  generalize Real.sqrt (2 ^ (-147 : ℤ)) = β at *
  have hf := fl32_rel r
  rw [abs_of_nonneg hr0] at hf
  have hpos : (0 : ℝ) < 2 ^ (-73 : ℤ) := zpow_pos (by norm_num) _
  rw [← hL2, ← hr2, ← hβ2] at h1 h2
  clear hβ2 h
  rw [e72]
  clear e72
  generalize (2 : ℝ) ^ (-73 : ℤ) = γ at *
  generalize (2 : ℝ) ^ (-150 : ℤ) = t at *
  have up : r ≤ (1 + 3 / 16777216) * L + β := by
    have : r ^ 2 ≤ ((1 + 3 / 16777216) * L + β) ^ 2 := by
      have : ((1 + 3 / 16777216) * L + β) ^ 2 =
        (1 + 6 / 16777216 + 9 / 16777216 ^ 2) * L ^ 2 + 2 * (1 + 3 / 16777216) * (L * β) + β ^ 2 := by ring
      have hLβ := mul_nonneg hL hβ0
      have := sq_nonneg L
      nlinarith
    exact (le_abs_self _).trans (abs_le_of_sq_le_sq this (by positivity))
  have lo : (1 - 3 / 16777216) * L ≤ r + β := by
    have : ((1 - 3 / 16777216) * L) ^ 2 ≤ (r + β) ^ 2 := by
      have hrβ := mul_nonneg hr0 hβ0
      have := sq_nonneg L
      nlinarith
    exact (le_abs_self _).trans (abs_le_of_sq_le_sq this (by positivity))
  obtain ⟨f1, f2⟩ := abs_le.1 hf
  unfold norm32
  rw [← hr, abs_le]
  constructor <;> nlinarith

theorem cos_error (hs : IsSum sum) {δ Θ : ℝ} {cos32 : ℝ → ℝ} (hc : IsCos δ cos32) {v : V3}
    (hΘ : length3 v ≤ Θ) :
    |cos32 (norm32 sum v) - Real.cos (length3 v)| ≤ δ + (4 * Θ + 1) / 8388608 := by
  have h1 := hc (norm32 sum v) (fl_number float32 _)
  have h2 : |Real.cos (norm32 sum v) - Real.cos (length3 v)| ≤ |norm32 sum v - length3 v| :=
    Real.abs_cos_sub_cos_le _ _
  have h3 := norm32_error hs v
  have t72 : (2 : ℝ) ^ (-72 : ℤ) ≤ 1 / 8388608 := by
    have : (2 : ℝ) ^ (-72 : ℤ) ≤ 2 ^ (-23 : ℤ) := two_zpow_le (by norm_num)
    exact this.trans (by norm_num)
  calc |cos32 (norm32 sum v) - Real.cos (length3 v)| =
        |(cos32 (norm32 sum v) - Real.cos (norm32 sum v)) + (Real.cos (norm32 sum v) - Real.cos (length3 v))| := by
          ring_nf
    _ ≤ _ := abs_add_le _ _
    _ ≤ _ := by linarith

theorem length3_triangle (v w : V3) : length3 (v + w) ≤ length3 v + length3 w := by
  unfold length3
  have ha : (0 : ℝ) ≤ v.1 ^ 2 + v.2.1 ^ 2 + v.2.2 ^ 2 := by positivity
  have hb : (0 : ℝ) ≤ w.1 ^ 2 + w.2.1 ^ 2 + w.2.2 ^ 2 := by positivity
  rw [Real.sqrt_le_left (add_nonneg (Real.sqrt_nonneg _) (Real.sqrt_nonneg _)), add_sq, Real.sq_sqrt ha,
    Real.sq_sqrt hb, mul_assoc, ← Real.sqrt_mul ha]
  have hc : v.1 * w.1 + v.2.1 * w.2.1 + v.2.2 * w.2.2 ≤
      Real.sqrt ((v.1 ^ 2 + v.2.1 ^ 2 + v.2.2 ^ 2) * (w.1 ^ 2 + w.2.1 ^ 2 + w.2.2 ^ 2)) := by
    apply Real.le_sqrt_of_sq_le
    nlinarith [sq_nonneg (v.1 * w.2.1 - v.2.1 * w.1), sq_nonneg (v.1 * w.2.2 - v.2.2 * w.1),
      sq_nonneg (v.2.1 * w.2.2 - v.2.2 * w.2.1)]
  show (v.1 + w.1) ^ 2 + (v.2.1 + w.2.1) ^ 2 + (v.2.2 + w.2.2) ^ 2 ≤ _
  nlinarith

theorem length3_neg (v : V3) : length3 (-v) = length3 v := by
  unfold length3
  simp only [Prod.fst_neg, Prod.snd_neg, neg_sq]

theorem length3_within {b : ℝ} {v : V3} (h : Within b v) : length3 v ≤ 2 * b := by
  obtain ⟨h1, h2, h3⟩ := h
  have hb : 0 ≤ b := (abs_nonneg _).trans h1
  unfold length3
  rw [Real.sqrt_le_left (by linarith)]
  have s1 := sq_le_sq' (by linarith [abs_nonneg v.1, neg_abs_le v.1]) ((le_abs_self v.1).trans h1)
  have s2 := sq_le_sq' (by linarith [neg_abs_le v.2.1]) ((le_abs_self v.2.1).trans h2)
  have s3 := sq_le_sq' (by linarith [neg_abs_le v.2.2]) ((le_abs_self v.2.2).trans h3)
  nlinarith [sq_nonneg b]

theorem length3_sub (v w : V3) : |length3 v - length3 w| ≤ length3 (v - w) := by
  have h1 := length3_triangle w (v - w)
  have h2 := length3_triangle v (-(v - w))
  rw [length3_neg] at h2
  rw [show w + (v - w) = v by abel] at h1
  rw [show v + -(v - w) = w by abel] at h2
  rw [abs_le]
  constructor <;> linarith

/-- Averages of numbers up to `G`, known up to `ε`. -/
theorem mean32_bound (hs : IsSum sum) {ι : Type} {l : List ι} {f g : ι → ℝ} {ε G : ℝ} (hG : 1 ≤ G) (hε : ε ≤ G)
    (hl : l ≠ []) (hn : l.length ≤ 2 ^ 20) (hg : ∀ i ∈ l, |g i| ≤ G) (h : ∀ i ∈ l, |f i - g i| ≤ ε) :
    |mean32 sum (l.map f) - average l g| ≤ ε + G * l.length / 4194304 := by
  have hpos : 0 < l.length := List.length_pos_of_ne_nil hl
  have hn0 : (1 : ℝ) ≤ l.length := by exact_mod_cast hpos
  have hn1 : (l.length : ℝ) ≤ 1048576 := by
    have : l.length ≤ 1048576 := by simpa using hn
    exact_mod_cast this
  have hf : ∀ x ∈ l.map f, |x| ≤ 2 * G := by
    intro x hx
    obtain ⟨i, hi, rfl⟩ := List.mem_map.1 hx
    calc |f i| = |(f i - g i) + g i| := by ring_nf
      _ ≤ |f i - g i| + |g i| := abs_add_le _ _
      _ ≤ 2 * G := by have := h i hi; have := hg i hi; linarith
  obtain ⟨e1, e2⟩ := (hs (l.map f) (by simpa using hl)).error (M := 2 * G) (n := l.length) (by linarith) hn hf
    (by simp)
  rw [List.length_map] at e1 e2
  unfold mean32
  rw [List.length_map]
  set s := sum (l.map f) with hsdef
  set n : ℝ := (l.length : ℝ) with hndef
  have hnp : (0 : ℝ) < n := by linarith
  have d1 : |s / n - (l.map f).sum / n| ≤ (n - 1) * G / 4194304 := by
    rw [← sub_div, abs_div, abs_of_pos hnp, div_le_iff₀ hnp]
    refine e1.trans (le_of_eq ?_)
    ring
  have d2 : |(l.map f).sum / n| ≤ 2 * G := by
    rw [abs_div, abs_of_pos hnp, div_le_iff₀ hnp]
    linarith
  have hnG : (n - 1) * G ≤ 1048576 * G := mul_le_mul_of_nonneg_right (by linarith) (by linarith)
  have d3 : |s / n| ≤ 3 * G := by
    calc |s / n| = |(s / n - (l.map f).sum / n) + (l.map f).sum / n| := by ring_nf
      _ ≤ _ := abs_add_le _ _
      _ ≤ 3 * G := by linarith
  have f1 := fl64_error (s / n)
  have t1 : (2 : ℝ) ^ (-53 : ℤ) ≤ 1 / 268435456 := by
    have : (2 : ℝ) ^ (-53 : ℤ) ≤ 2 ^ (-28 : ℤ) := two_zpow_le (by norm_num)
    exact this.trans (by norm_num)
  have t2 : (2 : ℝ) ^ (-1075 : ℤ) ≤ 1 / 268435456 := by
    have : (2 : ℝ) ^ (-1075 : ℤ) ≤ 2 ^ (-28 : ℤ) := two_zpow_le (by norm_num)
    exact this.trans (by norm_num)
  have t3 : (2 : ℝ) ^ (-150 : ℤ) ≤ 1 / 268435456 := by
    have : (2 : ℝ) ^ (-150 : ℤ) ≤ 2 ^ (-28 : ℤ) := two_zpow_le (by norm_num)
    exact this.trans (by norm_num)
  have f2 : |float64.fl (s / n) - s / n| ≤ 4 * G / 268435456 := by
    have := mul_le_mul t1 d3 (abs_nonneg _) (by norm_num)
    linarith
  set y := float64.fl (s / n) with hy
  have d4 : |y| ≤ 13 / 4 * G := by
    calc |y| = |(y - s / n) + s / n| := by ring_nf
      _ ≤ _ := abs_add_le _ _
      _ ≤ 13 / 4 * G := by linarith
  have f3 := fl32_rel y
  have d5 := average_error hl h
  unfold average at d5 ⊢
  rw [← hndef] at d5 ⊢
  calc |float32.fl y - (l.map g).sum / n| = |(float32.fl y - y) + ((y - s / n) +
        ((s / n - (l.map f).sum / n) + ((l.map f).sum / n - (l.map g).sum / n)))| := by ring_nf
    _ ≤ |float32.fl y - y| + (|y - s / n| + (|s / n - (l.map f).sum / n| +
        |(l.map f).sum / n - (l.map g).sum / n|)) :=
        (abs_add_le _ _).trans (add_le_add le_rfl ((abs_add_le _ _).trans (add_le_add le_rfl (abs_add_le _ _))))
    _ ≤ ε + G * n / 4194304 := by nlinarith

end Verif.Rounding
