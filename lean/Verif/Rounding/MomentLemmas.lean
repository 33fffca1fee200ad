import Verif.Rounding.FlLemmas
import Verif.Rounding.OverlapLemmas
import Verif.Rounding.MomentModel
import Verif.Rounding.MomentSpec
/-!
# Lemmas on relative errors
-/

namespace Verif.Rounding

open Verif.Motion Verif.Dynamics

/-- The factor of one rounding. -/
noncomputable def cc : ℝ := 1 - 2 ^ (-24 : ℤ)

theorem cc_pos : 0 < cc := by unfold cc; norm_num
theorem cc_le : cc ≤ 1 := by unfold cc; norm_num

/-- Equal up to `k` roundings; both are not negative. -/
def Close (k : ℕ) (x y : ℝ) : Prop := 0 ≤ y ∧ y * cc ^ k ≤ x ∧ x * cc ^ k ≤ y

theorem Close.nonneg {k : ℕ} {x y : ℝ} (h : Close k x y) : 0 ≤ x :=
  (mul_nonneg h.1 (pow_nonneg cc_pos.le k)).trans h.2.1

theorem Close.refl {x : ℝ} (h : 0 ≤ x) : Close 0 x x := ⟨h, by simp, by simp⟩

theorem Close.mono {k l : ℕ} {x y : ℝ} (h : Close k x y) (hkl : k ≤ l) : Close l x y := by
  have hp : cc ^ l ≤ cc ^ k := pow_le_pow_of_le_one cc_pos.le cc_le hkl
  exact ⟨h.1, (mul_le_mul_of_nonneg_left hp h.1).trans h.2.1,
    (mul_le_mul_of_nonneg_left hp h.nonneg).trans h.2.2⟩

theorem Close.trans {k l : ℕ} {x y z : ℝ} (h : Close k x y) (h' : Close l y z) : Close (k + l) x z := by
  have a := pow_nonneg cc_pos.le k
  have b := pow_nonneg cc_pos.le l
  refine ⟨h'.1, ?_, ?_⟩
  · calc z * cc ^ (k + l) = z * cc ^ l * cc ^ k := by rw [pow_add]; ring
      _ ≤ y * cc ^ k := mul_le_mul_of_nonneg_right h'.2.1 a
      _ ≤ x := h.2.1
  · calc x * cc ^ (k + l) = x * cc ^ k * cc ^ l := by rw [pow_add]; ring
      _ ≤ y * cc ^ l := mul_le_mul_of_nonneg_right h.2.2 b
      _ ≤ z := h'.2.2

theorem Close.add {k : ℕ} {x y x' y' : ℝ} (h : Close k x y) (h' : Close k x' y') :
    Close k (x + x') (y + y') :=
  ⟨add_nonneg h.1 h'.1, by rw [add_mul]; exact add_le_add h.2.1 h'.2.1,
    by rw [add_mul]; exact add_le_add h.2.2 h'.2.2⟩

theorem Close.mul {k l : ℕ} {x y x' y' : ℝ} (h : Close k x y) (h' : Close l x' y') :
    Close (k + l) (x * x') (y * y') := by
  have a := pow_nonneg cc_pos.le k
  have b := pow_nonneg cc_pos.le l
  refine ⟨mul_nonneg h.1 h'.1, ?_, ?_⟩
  · calc y * y' * cc ^ (k + l) = (y * cc ^ k) * (y' * cc ^ l) := by rw [pow_add]; ring
      _ ≤ x * x' := mul_le_mul h.2.1 h'.2.1 (mul_nonneg h'.1 b) h.nonneg
  · calc x * x' * cc ^ (k + l) = (x * cc ^ k) * (x' * cc ^ l) := by rw [pow_add]; ring
      _ ≤ y * y' := mul_le_mul h.2.2 h'.2.2 (mul_nonneg h'.nonneg b) h.1

theorem Close.smul {k : ℕ} {x y c : ℝ} (h : Close k x y) (hc : 0 ≤ c) : Close k (c * x) (c * y) := by
  have := (Close.refl hc).mul h
  rwa [Nat.zero_add] at this

theorem Close.pos {k : ℕ} {x y : ℝ} (h : Close k x y) (hy : 0 < y) : 0 < x :=
  lt_of_lt_of_le (mul_pos hy (pow_pos cc_pos k)) h.2.1

theorem Close.div {k l : ℕ} {x y x' y' : ℝ} (h : Close k x y) (h' : Close l x' y') (hy : 0 < y') :
    Close (k + l) (x / x') (y / y') := by
  have a := pow_nonneg cc_pos.le k
  have b := pow_nonneg cc_pos.le l
  have hx := h'.pos hy
  refine ⟨div_nonneg h.1 hy.le, ?_, ?_⟩
  · rw [le_div_iff₀ hx]
    calc y / y' * cc ^ (k + l) * x' = (y * cc ^ k) * (x' * cc ^ l) / y' := by rw [pow_add]; ring
      _ ≤ x * y' / y' := by
        apply div_le_div_of_nonneg_right _ hy.le
        exact mul_le_mul h.2.1 h'.2.2 (mul_nonneg hx.le b) h.nonneg
      _ = x := mul_div_cancel_right₀ _ hy.ne'
  · rw [le_div_iff₀ hy]
    calc x / x' * cc ^ (k + l) * y' = (x * cc ^ k) * (y' * cc ^ l) / x' := by rw [pow_add]; ring
      _ ≤ y * x' / x' := by
        apply div_le_div_of_nonneg_right _ hx.le
        exact mul_le_mul h.2.2 h'.2.1 (mul_nonneg hy.le b) h.1
      _ = y := mul_div_cancel_right₀ _ hx.ne'

/-- In plain terms: `k` roundings are an error of less than `2 k / 2^24`. -/
theorem Close.rel {k : ℕ} {x y : ℝ} (h : Close k x y) (hk : k ≤ 2 ^ 23) :
    |x - y| ≤ k * 2 ^ (-23 : ℤ) * y := by
  have e : (2 : ℝ) ^ (-23 : ℤ) = 1 / 8388608 := by norm_num
  have hk' : (k : ℝ) ≤ 8388608 := by
    have : k ≤ 8388608 := hk
    exact_mod_cast this
  have hb : 1 - k * (1 / 16777216) ≤ cc ^ k := by
    have := one_add_mul_le_pow (a := -(1 / 16777216 : ℝ)) (by norm_num) k
    have ec : cc = 1 + -(1 / 16777216) := by unfold cc; norm_num
    rw [ec]; linarith
  have hk0 : (0 : ℝ) ≤ k := Nat.cast_nonneg k
  rw [e, abs_le]
  constructor
  · have := mul_le_mul_of_nonneg_left hb h.1
    have h2 := h.2.1
    nlinarith [mul_nonneg hk0 h.1]
  · have h1 := mul_le_mul_of_nonneg_left hb h.nonneg
    have h2 := h.2.2
    have h3 : x * (1 - k * (1 / 16777216)) ≤ y := h1.trans h2
    have h4 : 1 / 2 ≤ 1 - (k : ℝ) * (1 / 16777216) := by linarith
    have h5 : 1 ≤ (1 + k * (1 / 8388608)) * (1 - (k : ℝ) * (1 / 16777216)) := by
      nlinarith [mul_nonneg hk0 (sub_nonneg.2 hk')]
    have h6 : x ≤ (1 + k * (1 / 8388608)) * y := by
      calc x ≤ x * ((1 + k * (1 / 8388608)) * (1 - (k : ℝ) * (1 / 16777216))) :=
            le_mul_of_one_le_right h.nonneg h5
        _ = (1 + k * (1 / 8388608)) * (x * (1 - k * (1 / 16777216))) := by ring
        _ ≤ _ := mul_le_mul_of_nonneg_left h3 (by positivity)
    linarith

/-- Zero or not too small. -/
def Big (e : ℤ) (x : ℝ) : Prop := x = 0 ∨ 2 ^ e ≤ x

theorem Big.nonneg {e : ℤ} {x : ℝ} (h : Big e x) : 0 ≤ x := by
  rcases h with rfl | h
  · exact le_rfl
  · exact (zpow_nonneg (by norm_num) e).trans h

theorem Big.add {e : ℤ} {x y : ℝ} (h : Big e x) (h' : Big e y) : Big e (x + y) := by
  rcases h with rfl | h
  · simpa using h'
  · exact .inr (h.trans (le_add_of_nonneg_right h'.nonneg))

theorem Big.mul {d e : ℤ} {x y : ℝ} (h : Big d x) (h' : Big e y) : Big (d + e) (x * y) := by
  rcases h with rfl | h
  · exact .inl (zero_mul y)
  rcases h' with rfl | h'
  · exact .inl (mul_zero x)
  · right
    rw [zpow_add₀ (by norm_num)]
    exact mul_le_mul h h' (zpow_nonneg (by norm_num) e) ((zpow_nonneg (by norm_num) d).trans h)

theorem Big.div {e : ℤ} {x : ℝ} (h : Big e x) {n k : ℕ} (hn : 0 < n) (hk : n ≤ 2 ^ k) :
    Big (e - k) (x / n) := by
  rcases h with rfl | h
  · exact .inl (zero_div _)
  · right
    have hn' : (0 : ℝ) < n := by exact_mod_cast hn
    rw [le_div_iff₀ hn', zpow_sub₀ (by norm_num), zpow_natCast]
    calc (2 : ℝ) ^ e / 2 ^ k * n ≤ 2 ^ e / 2 ^ k * 2 ^ k := by
          apply mul_le_mul_of_nonneg_left (by exact_mod_cast hk) (by positivity)
      _ = 2 ^ e := by field_simp
      _ ≤ x := h

theorem Big.mono {d e : ℤ} {x : ℝ} (h : Big d x) (hde : e ≤ d) : Big e x :=
  h.imp id (fun h => (two_zpow_le hde).trans h)

/-- Without underflow the error is relative. -/
theorem fl_rel_normal (F : Format) {x : ℝ} (hx : (2 : ℝ) ^ (F.emin + (F.digits - 1)) ≤ x) :
    |F.fl x - x| ≤ 2 ^ (-(F.digits : ℤ)) * x := by
  have hx0 : 0 < x := lt_of_lt_of_le (zpow_pos (by norm_num) _) hx
  have hl : F.emin + (F.digits - 1) ≤ Int.log 2 x :=
    (Int.zpow_le_iff_le_log (b := 2) (by norm_num) hx0).1 (by exact_mod_cast hx)
  have hle : (2 : ℝ) ^ (Int.log 2 x) ≤ x := by
    have := Int.zpow_log_le_self (b := 2) (by norm_num) hx0
    exact_mod_cast this
  have hexp : F.exp x = Int.log 2 x - (F.digits - 1) := by
    unfold Format.exp
    rw [abs_of_pos hx0, max_eq_left (by omega)]
  refine (fl_half F x).trans ?_
  rw [hexp]
  calc (2 : ℝ) ^ (Int.log 2 x - (F.digits - 1)) / 2 = 2 ^ (-(F.digits : ℤ)) * 2 ^ (Int.log 2 x) := by
        rw [← zpow_add₀ (by norm_num), div_eq_mul_inv, ← zpow_neg_one, ← zpow_add₀ (by norm_num)]
        congr 1; ring
    _ ≤ _ := mul_le_mul_of_nonneg_left hle (zpow_nonneg (by norm_num) _)

theorem close_of_rel {x y : ℝ} (hy : 0 ≤ y) (h : |x - y| ≤ 2 ^ (-24 : ℤ) * y) : Close 1 x y := by
  obtain ⟨h1, h2⟩ := abs_le.1 h
  have e : (2 : ℝ) ^ (-24 : ℤ) = 1 / 16777216 := by norm_num
  rw [e] at h1 h2
  refine ⟨hy, ?_, ?_⟩ <;> rw [pow_one] <;> unfold cc <;> rw [e]
  · linarith
  · have h3 : x ≤ (1 + 1 / 16777216) * y := by linarith
    nlinarith

theorem fl32_close {x : ℝ} (h : Big (-126) x) : Close 1 (float32.fl x) x := by
  rcases h with rfl | h
  · rw [fl_zero]; exact (Close.refl le_rfl).mono (by norm_num)
  · exact close_of_rel ((zpow_nonneg (by norm_num) _).trans h) (fl_rel_normal float32 h)

theorem fl64_close {x : ℝ} (h : Big (-1022) x) : Close 1 (float64.fl x) x := by
  rcases h with rfl | h
  · rw [fl_zero]; exact (Close.refl le_rfl).mono (by norm_num)
  · have hx : 0 ≤ x := (zpow_nonneg (by norm_num) _).trans h
    refine close_of_rel hx ((fl_rel_normal float64 h).trans ?_)
    exact mul_le_mul_of_nonneg_right (two_zpow_le (by decide)) hx

theorem fl_big (F : Format) (hF : 1 ≤ F.digits) {e : ℤ} (he : F.emin ≤ e) {x : ℝ} (h : Big e x) :
    Big e (F.fl x) := by
  rcases h with rfl | h
  · exact .inl (fl_zero F)
  · right
    have h1 := (fl_nearest F hF).mono h
    rwa [fl_exact F hF ⟨1, e, by
      rw [abs_one]; exact one_le_pow₀ (by norm_num), he, by simp⟩] at h1

theorem fl32_big {e : ℤ} (he : -149 ≤ e) {x : ℝ} (h : Big e x) : Big e (float32.fl x) :=
  fl_big float32 (by decide) he h

theorem fl64_big {e : ℤ} (he : -1074 ≤ e) {x : ℝ} (h : Big e x) : Big e (float64.fl x) :=
  fl_big float64 (by decide) he h

theorem SumTree.ne_nil {F : Format} {l : List ℝ} {s : ℝ} (h : SumTree F l s) : 0 < l.length := by
  induction h with
  | one x => simp
  | add _ _ h1 _ => rw [List.length_append]; omega
  | perm hp _ ih => rw [← hp.length_eq]; exact ih

theorem SumTree.close {l : List ℝ} {s : ℝ} (h : SumTree float32 l s) {e : ℤ} (he : -126 ≤ e)
    (hl : ∀ x ∈ l, Big e x) : Big e s ∧ Close (l.length - 1) s l.sum := by
  induction h with
  | one x =>
    have hx := hl x (by simp)
    exact ⟨hx, by simpa using Close.refl hx.nonneg⟩
  | @add l l' a b h1 h2 ih1 ih2 =>
    obtain ⟨b1, c1⟩ := ih1 (fun x hx => hl x (List.mem_append_left _ hx))
    obtain ⟨b2, c2⟩ := ih2 (fun x hx => hl x (List.mem_append_right _ hx))
    have hb := b1.add b2
    refine ⟨fl32_big (by omega) hb, ?_⟩
    have n1 := h1.ne_nil
    have n2 := h2.ne_nil
    have hc := (c1.mono (Nat.le_max_left _ (l'.length - 1))).add (c2.mono (Nat.le_max_right (l.length - 1) _))
    rw [List.sum_append, List.length_append]
    exact ((fl32_close (hb.mono he)).trans hc).mono (by omega)
  | perm hp _ ih =>
    rw [← hp.sum_eq, ← hp.length_eq]
    exact ih (fun x hx => hl x (hp.subset hx))

variable {sum : List ℝ → ℝ}

theorem square32_close {x y : ℝ} {k : ℕ} {e : ℤ} (he : -126 ≤ e + e) (hb : Big e x) (h : Close k x y) :
    Big (e + e) (square32 x) ∧ Close (k + k + 1) (square32 x) (y ^ 2) := by
  unfold square32
  refine ⟨fl32_big (by omega) (hb.mul hb), ?_⟩
  have := (fl32_close ((hb.mul hb).mono he)).trans (h.mul h)
  rw [sq]
  exact this.mono (by omega)

theorem square32_abs (x : ℝ) : square32 x = square32 |x| := by
  unfold square32
  rw [abs_mul_abs_self]

theorem sq32_close (hs : IsSum sum) {v : V3} (hv : Visible v) :
    Big (-40) (sq32 sum v) ∧ Close 3 (sq32 sum v) (sq3 v) := by
  obtain ⟨h1, h2, h3⟩ : Big (-20) |v.1| ∧ Big (-20) |v.2.1| ∧ Big (-20) |v.2.2| :=
    ⟨hv.1.imp abs_eq_zero.2 id, hv.2.1.imp abs_eq_zero.2 id, hv.2.2.imp abs_eq_zero.2 id⟩
  have e (x : ℝ) (h : Big (-20) |x|) : Big (-40) (square32 x) ∧ Close 1 (square32 x) (x ^ 2) := by
    rw [square32_abs, ← sq_abs]
    have := square32_close (by norm_num) h (Close.refl (abs_nonneg x))
    exact ⟨this.1.mono (by norm_num), this.2.mono (by norm_num)⟩
  obtain ⟨a1, b1⟩ := e _ h1
  obtain ⟨a2, b2⟩ := e _ h2
  obtain ⟨a3, b3⟩ := e _ h3
  have ht := (hs [square32 v.1, square32 v.2.1, square32 v.2.2] (by simp)).close (e := -40) (by norm_num)
    (by simp [a1, a2, a3])
  refine ⟨ht.1, ?_⟩
  unfold sq32 sq3
  have e2 : [square32 v.1, square32 v.2.1, square32 v.2.2].sum =
      square32 v.1 + (square32 v.2.1 + square32 v.2.2) := by simp
  rw [e2] at ht
  have := ht.2.trans (b1.add (b2.add b3))
  rw [← add_assoc] at this
  simpa [add_assoc] using this

/-- Averages of approximate values. -/
theorem mean32_close (hs : IsSum sum) {ι : Type} {l : List ι} {f g : ι → ℝ} {k : ℕ} {e : ℤ} (he : -106 ≤ e)
    (hl : l ≠ []) (hn : l.length ≤ 2 ^ 20) (hb : ∀ i ∈ l, Big e (f i)) (h : ∀ i ∈ l, Close k (f i) (g i)) :
    Big (e - 20) (mean32 sum (l.map f)) ∧ Close (k + l.length + 1) (mean32 sum (l.map f)) (average l g) := by
  have hpos : 0 < l.length := List.length_pos_of_ne_nil hl
  have ht := (hs (l.map f) (by simpa using hl)).close (e := e) (by omega)
    (fun x hx => by obtain ⟨i, hi, rfl⟩ := List.mem_map.1 hx; exact hb i hi)
  have hsum : Close k (l.map f).sum (l.map g).sum := by
    clear hb ht hl hn hpos
    induction l with
    | nil => simpa using (Close.refl le_rfl).mono (Nat.zero_le k)
    | cons a l ih =>
      simp only [List.map_cons, List.sum_cons]
      exact (h a (by simp)).add (ih (fun i hi => h i (List.mem_cons_of_mem _ hi)))
  have hc := ht.2.trans hsum
  have hbig := ht.1.div (k := 20) hpos hn
  have hn0 : (0 : ℝ) < l.length := by exact_mod_cast hpos
  have hcd : Close (l.length - 1 + k) (sum (l.map f) / l.length) ((l.map g).sum / l.length) := by
    have := hc.div (Close.refl hn0.le) hn0
    simpa using this
  unfold mean32 average
  rw [List.length_map]
  have h64 := fl64_big (by omega) hbig
  push_cast at hbig h64 ⊢
  refine ⟨fl32_big (by omega) h64, ?_⟩
  have := (fl32_close (h64.mono (by omega))).trans ((fl64_close (hbig.mono (by omega))).trans hcd)
  exact this.mono (by omega)

theorem msd_close (hs : IsSum sum) {ds : List V3} (hne : ds ≠ []) (hn : ds.length ≤ 2 ^ 20)
    (hv : ∀ v ∈ ds, Visible v) :
    Big (-60) (msd32 sum ds) ∧ Close (ds.length + 4) (msd32 sum ds) (average ds lenSq) := by
  have := mean32_close hs (by norm_num) hne hn (fun v h => (sq32_close hs (hv v h)).1)
    (fun v h => (sq32_close hs (hv v h)).2)
  exact ⟨this.1.mono (by norm_num), this.2.mono (by omega : 3 + ds.length + 1 ≤ ds.length + 4)⟩

theorem mfd_close (hs : IsSum sum) {ds : List V3} (hne : ds ≠ []) (hn : ds.length ≤ 2 ^ 20)
    (hv : ∀ v ∈ ds, Visible v) :
    Big (-100) (mfd32 sum ds) ∧
      Close (ds.length + 8) (mfd32 sum ds) (average ds (fun v => lenSq v ^ 2)) := by
  have h (v) (hm : v ∈ ds) := square32_close (by norm_num) (sq32_close hs (hv v hm)).1
    (sq32_close hs (hv v hm)).2
  have := mean32_close hs (f := fun v => square32 (sq32 sum v)) (g := fun v => lenSq v ^ 2) (k := 7) (e := -80)
    (by norm_num) hne hn
    (fun v hm => (h v hm).1.mono (by norm_num)) (fun v hm => (h v hm).2)
  unfold mfd32
  rw [List.map_map]
  exact ⟨this.1.mono (by norm_num), this.2.mono (by omega : 7 + ds.length + 1 ≤ ds.length + 8)⟩

/-- Adding from the left. -/
noncomputable def sumLeft : List ℝ → ℝ
  | [] => 0
  | x :: xs => xs.foldl (fun a b => float32.fl (a + b)) x

theorem sumLeft_sum : IsSum sumLeft := by
  have h : ∀ (xs l : List ℝ) (a : ℝ), SumTree float32 l a →
      SumTree float32 (l ++ xs) (xs.foldl (fun a b => float32.fl (a + b)) a) := by
    intro xs
    induction xs with
    | nil => intro l a h; simpa using h
    | cons x xs ih =>
      intro l a h
      have := ih (l ++ [x]) _ (h.add (.one x))
      simpa using this
  intro l hl
  cases l with
  | nil => exact absurd rfl hl
  | cons x xs => exact h xs [x] x (.one x)

theorem Close.zero {k : ℕ} {x : ℝ} (h : Close k x 0) : x = 0 := by
  have h1 := h.nonneg
  have h2 := h.2.2
  have h3 := pow_pos cc_pos k
  nlinarith

/-- The square of a sum and the sum of squares. -/
theorem sum_sq_le (l : List ℝ) : l.sum ^ 2 ≤ l.length * (l.map (· ^ 2)).sum := by
  induction l with
  | nil => simp
  | cons a l ih =>
    simp only [List.sum_cons, List.length_cons, List.map_cons]
    push_cast
    have hn : (0 : ℝ) ≤ l.length := Nat.cast_nonneg _
    have hq : 0 ≤ (l.map (· ^ 2)).sum := List.sum_nonneg (fun x hx => by
      obtain ⟨y, -, rfl⟩ := List.mem_map.1 hx; positivity)
    generalize (l.map (· ^ 2)).sum = q at *
    generalize l.sum = s at *
    generalize (l.length : ℝ) = n at *
    have key : 0 ≤ n * a ^ 2 - 2 * a * s + q := by
      rcases hn.eq_or_lt with h0 | h0
      · rw [← h0] at ih ⊢
        have : s = 0 := by nlinarith
        rw [this]; linarith
      · have : 0 ≤ n * (n * a ^ 2 - 2 * a * s + q) := by nlinarith [sq_nonneg (n * a - s)]
        exact nonneg_of_mul_nonneg_right this h0
    nlinarith

theorem average_sq_le {ι : Type} (l : List ι) (f : ι → ℝ) :
    average l f ^ 2 ≤ average l (fun i => f i ^ 2) := by
  unfold average
  have h := sum_sq_le (l.map f)
  rw [List.length_map, List.map_map] at h
  by_cases hl : l.length = 0
  · simp [hl]
  · have hn : (0 : ℝ) < l.length := by exact_mod_cast Nat.pos_of_ne_zero hl
    rw [div_pow, div_le_div_iff₀ (by positivity) hn]
    have e : ((fun x : ℝ => x ^ 2) ∘ f) = fun i => f i ^ 2 := rfl
    rw [e] at h
    nlinarith

theorem average_pos {ι : Type} {l : List ι} {f : ι → ℝ} (h0 : ∀ i ∈ l, 0 ≤ f i) {i : ι} (hi : i ∈ l)
    (hf : 0 < f i) : 0 < average l f := by
  unfold average
  have hn : (0 : ℝ) < l.length := by exact_mod_cast List.length_pos_of_mem hi
  refine div_pos (lt_of_lt_of_le hf ?_) hn
  exact List.single_le_sum (fun x hx => by obtain ⟨j, hj, rfl⟩ := List.mem_map.1 hx; exact h0 j hj) _
    (List.mem_map_of_mem hi)

theorem lenSq_nonneg (v : V3) : 0 ≤ lenSq v := by unfold lenSq; positivity

theorem lenSq_pos {v : V3} (h : v ≠ 0) : 0 < lenSq v := by
  rcases (lenSq_nonneg v).eq_or_lt with h0 | h0
  · exfalso
    apply h
    unfold lenSq at h0
    have a1 := sq_nonneg v.1
    have a2 := sq_nonneg v.2.1
    have a3 := sq_nonneg v.2.2
    have e1 : v.1 = 0 := by nlinarith
    have e2 : v.2.1 = 0 := by nlinarith
    have e3 : v.2.2 = 0 := by nlinarith
    exact Prod.ext e1 (Prod.ext e2 e3)
  · exact h0

theorem ratio_ok (F : Format) {a b : ℝ} (hb : b ≠ 0) :
    ratioMinusOneF F a b = .ok (some (float64.fl (F.fl (a / b) - 1))) := by
  simp [ratioMinusOneF, fdivF, fdiv, hb, Except.map]

theorem ratio_nan (F : Format) : ratioMinusOneF F 0 0 = .ok none := by
  simp [ratioMinusOneF, fdivF, fdiv, Except.map]

theorem ratio_error (F : Format) {a : ℝ} (ha : a ≠ 0) :
    ratioMinusOneF F a 0 = .error .floatingPointError := by
  simp [ratioMinusOneF, fdivF, fdiv, ha, Except.map]

end Verif.Rounding
