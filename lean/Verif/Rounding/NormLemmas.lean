import Mathlib.Analysis.SpecialFunctions.Trigonometric.Bounds
import Verif.Rounding.MomentLemmas
import Verif.Rounding.FlLemmas
import Verif.Rounding.OverlapLemmas
import Verif.Rounding.NormModel
import Verif.Rounding.NormSpec
/-!
# Lemmas on lengths in single precision
-/

namespace Verif.Rounding

open Verif.Motion Verif.Dynamics

variable {sum : List ℝ → ℝ}

theorem Close.sqrt {k : ℕ} {x y : ℝ} (h : Close (k + k) x y) : Close k (Real.sqrt x) (Real.sqrt y) := by
  have hp : (0 : ℝ) ≤ cc ^ k := pow_nonneg cc_pos.le k
  have e : Real.sqrt (cc ^ (k + k)) = cc ^ k := by rw [pow_add, Real.sqrt_mul_self hp]
  refine ⟨Real.sqrt_nonneg _, ?_, ?_⟩
  · rw [← e, ← Real.sqrt_mul h.1]
    exact Real.sqrt_le_sqrt h.2.1
  · rw [← e, ← Real.sqrt_mul h.nonneg]
    exact Real.sqrt_le_sqrt h.2.2

theorem Big.sqrt {e : ℤ} {x : ℝ} (h : Big (e + e) x) : Big e (Real.sqrt x) := by
  rcases h with rfl | h
  · exact .inl Real.sqrt_zero
  · right
    have hp : (0 : ℝ) ≤ 2 ^ e := zpow_nonneg (by norm_num) e
    rw [zpow_add₀ (by norm_num)] at h
    rw [← Real.sqrt_mul_self hp]
    exact Real.sqrt_le_sqrt h

theorem norm32_close (hs : IsSum sum) {v : V3} (hv : Visible v) :
    Big (-20) (norm32 sum v) ∧ Close 3 (norm32 sum v) (length3 v) := by
  obtain ⟨h1, h2⟩ := sq32_close hs hv
  have hb : Big (-20) (Real.sqrt (sq32 sum v)) := Big.sqrt (h1.mono (by norm_num))
  have hc : Close 2 (Real.sqrt (sq32 sum v)) (length3 v) := Close.sqrt (h2.mono (by norm_num))
  unfold norm32
  exact ⟨fl32_big (by norm_num) hb, (fl32_close (hb.mono (by norm_num))).trans hc⟩

theorem norm32_rel (hs : IsSum sum) {v : V3} (hv : Visible v) :
    |norm32 sum v - length3 v| ≤ 3 / 8388608 * length3 v := by
  have := (norm32_close hs hv).2.rel (by norm_num)
  have e : ((3 : ℕ) : ℝ) * 2 ^ (-23 : ℤ) = 3 / 8388608 := by norm_num
  rwa [e] at this

theorem length3_nonneg (v : V3) : 0 ≤ length3 v := Real.sqrt_nonneg _

theorem fl32_dist {d : ℝ} (hd : 2 ^ (-126 : ℤ) ≤ d) : |float32.fl d - d| ≤ 1 / 16777216 * d := by
  have h := fl_rel_normal float32 (x := d) hd
  rwa [show ((2 : ℝ) ^ (-(float32.digits : ℤ))) = 1 / 16777216 by
    rw [show -((float32.digits : ℕ) : ℤ) = -24 from rfl]; norm_num] at h

/-- A sum of numbers of either sign. -/
theorem SumTree.error {l : List ℝ} {s : ℝ} (h : SumTree float32 l s) {M : ℝ} {n : ℕ} (hM : 1 ≤ M)
    (hn : n ≤ 2 ^ 20) (hl : ∀ x ∈ l, |x| ≤ M) (hln : l.length ≤ n) :
    |s - l.sum| ≤ ((l.length : ℝ) - 1) * (n * M / 8388608) ∧ |l.sum| ≤ l.length * M := by
  have hn' : (n : ℝ) ≤ 1048576 := by
    have : n ≤ 1048576 := by simpa using hn
    exact_mod_cast this
  induction h with
  | one x =>
    have := hl x (by simp)
    simp [this]
  | @add l l' a b h1 h2 ih1 ih2 =>
    have p1 : (1 : ℝ) ≤ l.length := by exact_mod_cast h1.ne_nil
    have p2 : (1 : ℝ) ≤ l'.length := by exact_mod_cast h2.ne_nil
    have hle : (l.length : ℝ) + l'.length ≤ n := by
      have : l.length + l'.length ≤ n := by simpa using hln
      exact_mod_cast this
    have q1 : l.length ≤ n := by rw [List.length_append] at hln; omega
    have q2 : l'.length ≤ n := by rw [List.length_append] at hln; omega
    obtain ⟨e1, s1⟩ := ih1 (fun x hx => hl x (by simp [hx])) q1
    obtain ⟨e2, s2⟩ := ih2 (fun x hx => hl x (by simp [hx])) q2
    rw [List.sum_append, List.length_append]
    push_cast
    set p : ℝ := (l.length : ℝ)
    set q : ℝ := (l'.length : ℝ)
    set c : ℝ := n * M / 8388608 with hc
    have hfl := fl_rel float32 (a + b)
    rw [show -((float32.digits : ℕ) : ℤ) = -24 from rfl, show float32.emin - 1 = -150 from rfl] at hfl
    have t1 : (2 : ℝ) ^ (-24 : ℤ) = 1 / 16777216 := by norm_num
    have t2 : (2 : ℝ) ^ (-150 : ℤ) ≤ 1 / 268435456 := by
      have : (2 : ℝ) ^ (-150 : ℤ) ≤ 2 ^ (-28 : ℤ) := two_zpow_le (by norm_num)
      refine this.trans ?_
      norm_num
    rw [t1] at hfl
    have hnpos : (2 : ℝ) ≤ n := by linarith
    have hcM : c ≤ M / 8 := by rw [hc]; nlinarith
    have hc0 : 0 < c := by rw [hc]; positivity
    refine ⟨?_, ?_⟩
    · have hab : |a + b| ≤ (p + q) * M + (p + q - 2) * c := by
        calc |a + b| = |(a - l.sum) + (b - l'.sum) + (l.sum + l'.sum)| := by ring_nf
          _ ≤ |a - l.sum| + |b - l'.sum| + (|l.sum| + |l'.sum|) :=
            (abs_add_le _ _).trans (add_le_add (abs_add_le _ _) (abs_add_le _ _))
          _ ≤ _ := by linarith
      have hab2 : |a + b| ≤ n * M * (9 / 8) := by
        refine hab.trans ?_
        have x1 : (p + q) * M ≤ n * M := mul_le_mul_of_nonneg_right hle (by linarith)
        have x2 : (p + q - 2) * c ≤ n * (M / 8) := by
          apply mul_le_mul (by linarith) hcM hc0.le (by linarith)
        nlinarith
      calc |float32.fl (a + b) - (l.sum + l'.sum)| =
            |(float32.fl (a + b) - (a + b)) + ((a - l.sum) + (b - l'.sum))| := by ring_nf
        _ ≤ |float32.fl (a + b) - (a + b)| + (|a - l.sum| + |b - l'.sum|) :=
            (abs_add_le _ _).trans (add_le_add le_rfl (abs_add_le _ _))
        _ ≤ (1 / 16777216 * (n * M * (9 / 8)) + 1 / 268435456) + ((p - 1) * c + (q - 1) * c) := by
            refine add_le_add (hfl.trans ?_) (add_le_add e1 e2)
            have := mul_le_mul_of_nonneg_left hab2 (show (0 : ℝ) ≤ 1 / 16777216 by norm_num)
            linarith
        _ ≤ (p + q - 1) * c := by
            have hnM : 2 ≤ n * M := by nlinarith
            have : c = n * M * (1 / 8388608) := by rw [hc]; ring
            nlinarith
    · exact (abs_add_le _ _).trans (by linarith)
  | perm hp h ih =>
    rw [← hp.sum_eq, ← hp.length_eq]
    exact ih (fun x hx => hl x (hp.subset hx)) (by rw [hp.length_eq]; exact hln)

theorem average_error {ι : Type} {l : List ι} {f g : ι → ℝ} {ε : ℝ} (hl : l ≠ [])
    (h : ∀ i ∈ l, |f i - g i| ≤ ε) : |average l f - average l g| ≤ ε := by
  have hn0 : (0 : ℝ) < l.length := by exact_mod_cast List.length_pos_of_ne_nil hl
  have hsum : |(l.map f).sum - (l.map g).sum| ≤ l.length * ε := by
    clear hl hn0
    induction l with
    | nil => simp
    | cons a l ih =>
      simp only [List.map_cons, List.sum_cons, List.length_cons]
      have h1 := h a (by simp)
      have h2 := ih (fun i hi => h i (List.mem_cons_of_mem _ hi))
      push_cast
      calc |f a + (l.map f).sum - (g a + (l.map g).sum)| =
            |(f a - g a) + ((l.map f).sum - (l.map g).sum)| := by ring_nf
        _ ≤ _ := (abs_add_le _ _).trans (by linarith)
  unfold average
  rw [← sub_div, abs_div, abs_of_pos hn0, div_le_iff₀ hn0]
  linarith

/-- Averages of numbers between -1 and 1, known up to `ε`. -/
theorem mean32_error (hs : IsSum sum) {ι : Type} {l : List ι} {f g : ι → ℝ} {ε : ℝ} (hε : ε ≤ 1)
    (hl : l ≠ []) (hn : l.length ≤ 2 ^ 20) (hg : ∀ i ∈ l, |g i| ≤ 1) (h : ∀ i ∈ l, |f i - g i| ≤ ε) :
    |mean32 sum (l.map f) - average l g| ≤ ε + l.length / 4194304 := by
  have hpos : 0 < l.length := List.length_pos_of_ne_nil hl
  have hn0 : (1 : ℝ) ≤ l.length := by exact_mod_cast hpos
  have hn1 : (l.length : ℝ) ≤ 1048576 := by
    have : l.length ≤ 1048576 := by simpa using hn
    exact_mod_cast this
  have hf : ∀ x ∈ l.map f, |x| ≤ 2 := by
    intro x hx
    obtain ⟨i, hi, rfl⟩ := List.mem_map.1 hx
    calc |f i| = |(f i - g i) + g i| := by ring_nf
      _ ≤ |f i - g i| + |g i| := abs_add_le _ _
      _ ≤ 2 := by have := h i hi; have := hg i hi; linarith
  obtain ⟨e1, e2⟩ := (hs (l.map f) (by simpa using hl)).error (M := 2) (n := l.length) (by norm_num) hn hf
    (by simp)
  rw [List.length_map] at e1 e2
  unfold mean32
  rw [List.length_map]
  set s := sum (l.map f) with hsdef
  set n : ℝ := (l.length : ℝ) with hndef
  have hnp : (0 : ℝ) < n := by linarith
  -- the quotient
  have d1 : |s / n - (l.map f).sum / n| ≤ (n - 1) / 4194304 := by
    rw [← sub_div, abs_div, abs_of_pos hnp, div_le_iff₀ hnp]
    refine e1.trans (le_of_eq ?_)
    ring
  have d2 : |(l.map f).sum / n| ≤ 2 := by
    rw [abs_div, abs_of_pos hnp, div_le_iff₀ hnp]
    linarith
  have d3 : |s / n| ≤ 3 := by
    calc |s / n| = |(s / n - (l.map f).sum / n) + (l.map f).sum / n| := by ring_nf
      _ ≤ _ := abs_add_le _ _
      _ ≤ 3 := by linarith
  have f1 := fl64_error (s / n)
  have t1 : (2 : ℝ) ^ (-53 : ℤ) ≤ 1 / 268435456 := by
    have : (2 : ℝ) ^ (-53 : ℤ) ≤ 2 ^ (-28 : ℤ) := two_zpow_le (by norm_num)
    exact this.trans (by norm_num)
  have t2 : (2 : ℝ) ^ (-1075 : ℤ) ≤ 1 / 268435456 := by
    have : (2 : ℝ) ^ (-1075 : ℤ) ≤ 2 ^ (-28 : ℤ) := two_zpow_le (by norm_num)
    exact this.trans (by norm_num)
  have t3 : (2 : ℝ) ^ (-150 : ℤ) ≤ 1 / 268435456 := by
    have : (2 : ℝ) ^ (-150 : ℤ) ≤ 2 ^ (-28 : ℤ) := two_zpow_le (by norm_num)
    exact this.trans (by norm_num)
  have f2 : |float64.fl (s / n) - s / n| ≤ 4 / 268435456 := by
    have := mul_le_mul t1 d3 (abs_nonneg _) (by norm_num)
    linarith
  set y := float64.fl (s / n) with hy
  have d4 : |y| ≤ 13 / 4 := by
    calc |y| = |(y - s / n) + s / n| := by ring_nf
      _ ≤ _ := abs_add_le _ _
      _ ≤ 13 / 4 := by linarith
  have f3 := fl_rel float32 y
  rw [show -((float32.digits : ℕ) : ℤ) = -24 from rfl, show float32.emin - 1 = -150 from rfl,
    show (2 : ℝ) ^ (-24 : ℤ) = 1 / 16777216 by norm_num] at f3
  have d5 := average_error hl h
  unfold average at d5 ⊢
  rw [← hndef] at d5 ⊢
  calc |float32.fl y - (l.map g).sum / n| = |(float32.fl y - y) + ((y - s / n) +
        ((s / n - (l.map f).sum / n) + ((l.map f).sum / n - (l.map g).sum / n)))| := by ring_nf
    _ ≤ |float32.fl y - y| + (|y - s / n| + (|s / n - (l.map f).sum / n| +
        |(l.map f).sum / n - (l.map g).sum / n|)) :=
        (abs_add_le _ _).trans (add_le_add le_rfl ((abs_add_le _ _).trans (add_le_add le_rfl (abs_add_le _ _))))
    _ ≤ ε + n / 4194304 := by linarith

theorem cos2_error {c C ε : ℝ} (hC : |C| ≤ 1) (hε : ε ≤ 1 / 8) (h : |c - C| ≤ ε) :
    |double32 c - (2 * C ^ 2 - 1)| ≤ 5 * ε + 1 / 1048576 := by
  have hε0 : 0 ≤ ε := (abs_nonneg _).trans h
  have t3 : (2 : ℝ) ^ (-150 : ℤ) ≤ 1 / 268435456 := by
    have : (2 : ℝ) ^ (-150 : ℤ) ≤ 2 ^ (-28 : ℤ) := two_zpow_le (by norm_num)
    exact this.trans (by norm_num)
  have hfl (x : ℝ) : |float32.fl x - x| ≤ 1 / 16777216 * |x| + 1 / 268435456 := by
    have := fl_rel float32 x
    rw [show -((float32.digits : ℕ) : ℤ) = -24 from rfl, show float32.emin - 1 = -150 from rfl,
      show (2 : ℝ) ^ (-24 : ℤ) = 1 / 16777216 by norm_num] at this
    linarith
  have hc1 : |c| ≤ 9 / 8 := by
    calc |c| = |(c - C) + C| := by ring_nf
      _ ≤ _ := abs_add_le _ _
      _ ≤ _ := by linarith
  have hcc : |c * c - C ^ 2| ≤ 9 / 4 * ε := by
    rw [show c * c - C ^ 2 = (c - C) * (c + C) by ring, abs_mul]
    have : |c + C| ≤ 9 / 4 := (abs_add_le _ _).trans (by linarith)
    calc |c - C| * |c + C| ≤ ε * (9 / 4) := mul_le_mul h this (abs_nonneg _) hε0
      _ = _ := by ring
  have hc2 : |c * c| ≤ 3 / 2 := by
    rw [abs_mul]
    nlinarith [abs_nonneg c]
  unfold double32 square32
  set s := float32.fl (c * c) with hs
  have e1 := hfl (c * c)
  have hs1 : |s - c * c| ≤ 2 / 16777216 := by
    rw [hs]
    linarith
  have hs2 : |2 * s| ≤ 4 := by
    have : |s| ≤ 2 := by
      calc |s| = |(s - c * c) + c * c| := by ring_nf
        _ ≤ _ := abs_add_le _ _
        _ ≤ _ := by linarith
    rw [abs_mul, abs_two]
    linarith
  have e2 := hfl (2 * s)
  set w := float32.fl (2 * s) with hw
  have hw1 : |w - 1| ≤ 6 := by
    calc |w - 1| = |(w - 2 * s) + (2 * s + (-1))| := by ring_nf
      _ ≤ |w - 2 * s| + (|2 * s| + |(-1 : ℝ)|) := (abs_add_le _ _).trans (add_le_add le_rfl (abs_add_le _ _))
      _ ≤ _ := by rw [abs_neg, abs_one]; linarith
  have e3 := hfl (w - 1)
  calc |float32.fl (w - 1) - (2 * C ^ 2 - 1)| =
        |(float32.fl (w - 1) - (w - 1)) + ((w - 2 * s) + (2 * (s - c * c) + 2 * (c * c - C ^ 2)))| := by ring_nf
    _ ≤ |float32.fl (w - 1) - (w - 1)| + (|w - 2 * s| + (|2 * (s - c * c)| + |2 * (c * c - C ^ 2)|)) :=
        (abs_add_le _ _).trans (add_le_add le_rfl ((abs_add_le _ _).trans (add_le_add le_rfl (abs_add_le _ _))))
    _ ≤ _ := by
      rw [abs_mul, abs_mul, abs_two]
      linarith

end Verif.Rounding
