import Verif.Rounding.MomentLemmas
/-!
# C123, C124: the averages of `compute_all` in single precision
-/

namespace Verif.Rounding

open Verif.Motion Verif.Dynamics

variable {sum : List ℝ → ℝ}

/-- **C123, `msd`**: in whatever order numpy adds, the mean squared displacement of up to 2^20 molecules is
right up to the fraction `(N + 4) / 2^23`, if no component of a displacement is below 1e-6 without being zero. -/
theorem C123_msd (hs : IsSum sum) {ds : List V3} (hne : ds ≠ []) (hn : ds.length ≤ 2 ^ 20)
    (hv : ∀ v ∈ ds, Visible v) :
    RelErr ((ds.length + 4) / 2 ^ 23) (msd32 sum ds) (average ds lenSq) := by
  have := (msd_close hs hne hn hv).2.rel (by omega)
  unfold RelErr
  refine this.trans (le_of_eq ?_)
  push_cast
  rw [zpow_neg]
  norm_num [div_eq_mul_inv]

/-- **C123, `mfd`**. -/
theorem C123_mfd (hs : IsSum sum) {ds : List V3} (hne : ds ≠ []) (hn : ds.length ≤ 2 ^ 20)
    (hv : ∀ v ∈ ds, Visible v) :
    RelErr ((ds.length + 8) / 2 ^ 23) (mfd32 sum ds) (average ds (fun v => lenSq v ^ 2)) := by
  have := (mfd_close hs hne hn hv).2.rel (by omega)
  unfold RelErr
  refine this.trans (le_of_eq ?_)
  push_cast
  rw [zpow_neg]
  norm_num [div_eq_mul_inv]

/-- Ten molecules of which one has moved by (1/2, 0, 0), and numpy's sums from the left. -/
example : IsSum sumLeft ∧ (((1 / 2, 0, 0) : V3) :: List.replicate 9 0) ≠ [] ∧
    ∀ v ∈ ((1 / 2, 0, 0) : V3) :: List.replicate 9 0, Visible v := by
  refine ⟨sumLeft_sum, by simp, ?_⟩
  intro v hv
  rcases List.mem_cons.1 hv with rfl | hv
  · refine ⟨.inr ?_, .inl rfl, .inl rfl⟩
    norm_num [abs_of_pos]
  · rw [List.eq_of_mem_replicate hv]
    exact ⟨.inl rfl, .inl rfl, .inl rfl⟩

/-! ## C124 -/

/-- **C124, the property as stated**: `compute_alpha` of displacements in single precision raises no
FloatingPointError. -/
def NeverRaises : Prop :=
  ∀ sum, IsSum sum → ∀ ds : List V3, ds ≠ [] →
    (∀ v ∈ ds, float32.Number v.1 ∧ float32.Number v.2.1 ∧ float32.Number v.2.2) →
    alpha32 sum 2 ds ≠ .error .floatingPointError

/-- **C124, `alpha` and `alpha_rot`** (`c` is 2 and 3): if something moved a number is reported, with an
explicit error. -/
theorem C124_alpha_partial (hs : IsSum sum) {ds : List V3} (hn : ds.length ≤ 2 ^ 20)
    (hv : ∀ v ∈ ds, Visible v) (hmove : ∃ v ∈ ds, v ≠ 0) {c : ℝ} (hc : c = 2 ∨ c = 3) :
    ∃ r, alpha32 sum c ds = .ok (some (float64.fl (r - 1))) ∧
      RelErr ((3 * ds.length + 19) / 2 ^ 23) r
        (average ds (fun v => lenSq v ^ 2) / (c * average ds lenSq ^ 2)) := by
  obtain ⟨w, hw, hw0⟩ := hmove
  have hne : ds ≠ [] := List.ne_nil_of_mem hw
  obtain ⟨b2, c2⟩ := msd_close hs hne hn hv
  obtain ⟨b4, c4⟩ := mfd_close hs hne hn hv
  have hp : 0 < average ds lenSq := average_pos (fun v _ => lenSq_nonneg v) hw (lenSq_pos hw0)
  have hc1 : 1 ≤ c ∧ c ≤ 3 := by rcases hc with rfl | rfl <;> norm_num
  obtain ⟨bs, cs⟩ := square32_close (by norm_num) b2 c2
  have bd : Big (-120) (c * square32 (msd32 sum ds)) := by
    rcases bs with h | h
    · exact .inl (by rw [h, mul_zero])
    · right
      have h0 : (2 : ℝ) ^ (-120 : ℤ) ≤ square32 (msd32 sum ds) := by
        refine le_trans (two_zpow_le (by norm_num)) h
      nlinarith [zpow_pos (by norm_num : (0 : ℝ) < 2) (-120 : ℤ)]
  have cd := (fl64_close (bd.mono (by norm_num))).trans (cs.smul (by linarith : 0 ≤ c))
  have hden : 0 < c * average ds lenSq ^ 2 := by
    have := hc1.1
    positivity
  have hd0 := (cd.pos hden).ne'
  have cq := c4.div cd hden
  set R := average ds (fun v => lenSq v ^ 2) / (c * average ds lenSq ^ 2) with hR
  have hRlow : 1 / 3 ≤ R := by
    rw [hR, le_div_iff₀ hden]
    have := average_sq_le ds lenSq
    have h2 : 0 ≤ average ds lenSq ^ 2 := sq_nonneg _
    nlinarith
  have hq : Big (-1022) (mfd32 sum ds / float64.fl (c * square32 (msd32 sum ds))) := by
    right
    have hrel := cq.rel (by omega)
    have h1 := (abs_le.1 hrel).1
    have hk : (((ds.length + 8 + (1 + (ds.length + 4 + (ds.length + 4) + 1)) : ℕ) : ℝ) * 2 ^ (-23 : ℤ)) ≤ 1 / 2 := by
      have : (ds.length : ℝ) ≤ 2 ^ 20 := by exact_mod_cast hn
      push_cast
      rw [zpow_neg]
      norm_num
      norm_num at this
      have h3 : (ds.length : ℝ) ≤ 1048576 := by exact_mod_cast this
      linarith
    have h2 : 1 / 6 ≤ mfd32 sum ds / float64.fl (c * square32 (msd32 sum ds)) := by
      nlinarith
    refine le_trans ?_ h2
    refine (two_zpow_le (by norm_num : (-1022 : ℤ) ≤ -3)).trans ?_
    norm_num
  refine ⟨_, ratio_ok float64 hd0, ?_⟩
  have := ((fl64_close hq).trans cq).rel (by omega)
  unfold RelErr
  refine this.trans (le_of_eq ?_)
  push_cast
  rw [zpow_neg]
  norm_num [div_eq_mul_inv]
  left
  ring

/-- **C124, `gamma`**: likewise if something moved and something turned; the ratio may be so small as to
be lost, which then does not matter for what is reported. -/
theorem C124_gamma_partial (hs : IsSum sum) {ds rs : List V3} (hlen : ds.length = rs.length)
    (hn : ds.length ≤ 2 ^ 20) (hv : ∀ v ∈ ds, Visible v) (hw : ∀ v ∈ rs, Visible v)
    (hmove : ∃ v ∈ ds, v ≠ 0) (hturn : ∃ v ∈ rs, v ≠ 0) :
    ∃ r R, R = average (ds.zip rs) (fun p => lenSq p.1 * lenSq p.2) / (average ds lenSq * average rs lenSq) ∧
      gamma32 sum ds rs = .ok (some (float64.fl (r - 1))) ∧
      (RelErr ((3 * ds.length + 18) / 2 ^ 23) r R ∨ 0 ≤ r ∧ r ≤ 2 ^ (-126 : ℤ) ∧ R ≤ 2 ^ (-125 : ℤ)) := by
  obtain ⟨d, hd, hd0⟩ := hmove
  obtain ⟨e, he, he0⟩ := hturn
  have hne : ds ≠ [] := List.ne_nil_of_mem hd
  have hne' : rs ≠ [] := List.ne_nil_of_mem he
  obtain ⟨b2, c2⟩ := msd_close hs hne hn hv
  obtain ⟨b3, c3⟩ := msd_close hs hne' (hlen ▸ hn) hw
  have hp : 0 < average ds lenSq := average_pos (fun v _ => lenSq_nonneg v) hd (lenSq_pos hd0)
  have hp' : 0 < average rs lenSq := average_pos (fun v _ => lenSq_nonneg v) he (lenSq_pos he0)
  have bd := b2.mul b3
  have cd := (fl32_close (bd.mono (by norm_num))).trans (c2.mul c3)
  have hden : 0 < average ds lenSq * average rs lenSq := mul_pos hp hp'
  have hdv0 := (cd.pos hden).ne'
  have hzl : (ds.zip rs).length = ds.length := by rw [List.length_zip, ← hlen, min_self]
  have hz : (ds.zip rs) ≠ [] := by
    intro h
    rw [h] at hzl
    exact hne (List.length_eq_zero_iff.1 hzl.symm)
  have hterm (q : V3 × V3) (hq : q ∈ ds.zip rs) :
      Big (-80) (float32.fl (sq32 sum q.1 * sq32 sum q.2)) ∧
        Close 7 (float32.fl (sq32 sum q.1 * sq32 sum q.2)) (lenSq q.1 * lenSq q.2) := by
    obtain ⟨x1, y1⟩ := sq32_close hs (hv _ (List.of_mem_zip hq).1)
    obtain ⟨x2, y2⟩ := sq32_close hs (hw _ (List.of_mem_zip hq).2)
    have hb := x1.mul x2
    exact ⟨fl32_big (by norm_num) (hb.mono (by norm_num)),
      (fl32_close (hb.mono (by norm_num))).trans (y1.mul y2)⟩
  obtain ⟨-, cn⟩ := mean32_close hs (by norm_num) hz (hzl ▸ hn) (fun q hq => (hterm q hq).1)
    (fun q hq => (hterm q hq).2)
  have ez : List.zipWith (fun a b => float32.fl (a * b)) (ds.map (sq32 sum)) (rs.map (sq32 sum)) =
      (ds.zip rs).map (fun q => float32.fl (sq32 sum q.1 * sq32 sum q.2)) := by
    rw [List.zip, List.map_zipWith, List.zipWith_map]
  rw [hzl] at cn
  have cq := cn.div cd hden
  refine ⟨float32.fl (mean32 sum ((ds.zip rs).map (fun q => float32.fl (sq32 sum q.1 * sq32 sum q.2))) /
      float32.fl (msd32 sum ds * msd32 sum rs)), _, rfl, ?_, ?_⟩
  · unfold gamma32
    simp only [ez]
    exact ratio_ok float32 hdv0
  · set q := mean32 sum ((ds.zip rs).map (fun q => float32.fl (sq32 sum q.1 * sq32 sum q.2))) /
      float32.fl (msd32 sum ds * msd32 sum rs) with hq
    set R := average (ds.zip rs) (fun p => lenSq p.1 * lenSq p.2) / (average ds lenSq * average rs lenSq)
    change RelErr _ (float32.fl q) R ∨ 0 ≤ float32.fl q ∧ float32.fl q ≤ _ ∧ _
    by_cases hbig : (2 : ℝ) ^ (-126 : ℤ) ≤ q
    · left
      have := ((fl32_close (.inr hbig)).trans cq).rel (by omega)
      unfold RelErr
      refine this.trans (le_of_eq ?_)
      rw [← hlen]
      push_cast
      rw [zpow_neg]
      norm_num [div_eq_mul_inv]
      left
      ring
    · right
      push Not at hbig
      have hmono {x y : ℝ} (h : x ≤ y) := (fl_nearest float32 (by decide)).mono h
      refine ⟨?_, ?_, ?_⟩
      · have := hmono cq.nonneg
        rwa [fl_zero] at this
      · have := hmono hbig.le
        have e : float32.fl ((2 : ℝ) ^ (-126 : ℤ)) = 2 ^ (-126 : ℤ) :=
          fl_exact float32 (by decide) ⟨1, -126, by decide, by decide, by simp⟩
        rwa [e] at this
      · have hrel := cq.rel (by omega)
        have h1 := (abs_le.1 hrel).1
        have hk : (((7 + ds.length + 1 + (1 + (ds.length + 4 + (rs.length + 4))) : ℕ) : ℝ) * 2 ^ (-23 : ℤ)) ≤
            1 / 2 := by
          have h3 : (ds.length : ℝ) ≤ 1048576 := by
            have : ds.length ≤ 1048576 := hn
            exact_mod_cast this
          rw [← hlen]
          push_cast
          rw [zpow_neg]
          norm_num
          linarith
        have hR := mul_le_mul_of_nonneg_right hk cq.1
        have h126 : (2 : ℝ) ^ (-125 : ℤ) = 2 * 2 ^ (-126 : ℤ) := by
          rw [show (-125 : ℤ) = 1 + -126 from rfl, zpow_add₀ (by norm_num), zpow_one]
        rw [h126]
        have h2 := (neg_le_neg hR).trans h1
        generalize (2 : ℝ) ^ (-126 : ℤ) = z at hbig ⊢
        clear h1 hR hk hrel h126
        linarith

/-- The ten molecules of the example above, moving and turning. -/
example : ∃ v ∈ ((1 / 2, 0, 0) : V3) :: List.replicate 9 0, v ≠ 0 :=
  ⟨(1 / 2, 0, 0), by simp, by
    intro h
    have := congrArg Prod.fst h
    norm_num at this⟩

/-- **C124, at rest**: NaN, not an exception. -/
theorem C124_rest (hs : IsSum sum) {ds : List V3} (hne : ds ≠ []) (hn : ds.length ≤ 2 ^ 20)
    (hrest : ∀ v ∈ ds, v = 0) (c : ℝ) : alpha32 sum c ds = .ok none := by
  have hv : ∀ v ∈ ds, Visible v := fun v h => by
    rw [hrest v h]; exact ⟨.inl rfl, .inl rfl, .inl rfl⟩
  have h2 := (msd_close hs hne hn hv).2
  have h4 := (mfd_close hs hne hn hv).2
  have e2 : average ds lenSq = 0 := by
    unfold average
    rw [List.sum_eq_zero (fun x hx => by
      obtain ⟨v, hv, rfl⟩ := List.mem_map.1 hx
      rw [hrest v hv]; simp [lenSq]), zero_div]
  have e4 : average ds (fun v => lenSq v ^ 2) = 0 := by
    unfold average
    rw [List.sum_eq_zero (fun x hx => by
      obtain ⟨v, hv, rfl⟩ := List.mem_map.1 hx
      rw [hrest v hv]; simp [lenSq]), zero_div]
  rw [e2] at h2
  rw [e4] at h4
  have z2 := h2.zero
  have z4 := h4.zero
  unfold msd32 at z2
  unfold mfd32 at z4
  unfold alpha32
  simp only [z2, z4]
  rw [show square32 0 = 0 by unfold square32; rw [mul_zero, fl_zero], mul_zero, fl_zero]
  exact ratio_nan _

example : ([0, 0] : List V3) ≠ [] ∧ ∀ v ∈ ([0, 0] : List V3), v = 0 := by simp

/-- **C124 is false of the code**: of two molecules one has moved by 2^-37, about 7e-12.  The mean fourth
power is the smallest number of float32, the square of the mean underflows to zero, and the division raises
again inside the handler. -/
theorem C124_refuted : ¬ NeverRaises := by
  intro h
  have num (k : ℤ) (hk : -149 ≤ k) : float32.fl (2 ^ k) = 2 ^ k :=
    fl_exact float32 (by decide) ⟨1, k, by decide, hk, by simp⟩
  have num64 (k : ℤ) (hk : -1074 ≤ k) : float64.fl (2 ^ k) = 2 ^ k :=
    fl_exact float64 (by decide) ⟨1, k, by decide, hk, by simp⟩
  have two (a b : ℤ) : (2 : ℝ) ^ a * 2 ^ b = 2 ^ (a + b) := (zpow_add₀ (by norm_num) a b).symm
  have half (a : ℤ) : (2 : ℝ) ^ a / 2 = 2 ^ (a - 1) := by
    rw [zpow_sub₀ (by norm_num), zpow_one]
  have z32 : float32.fl 0 = 0 := fl_zero _
  refine h sumLeft sumLeft_sum [((2 : ℝ) ^ (-37 : ℤ), 0, 0), 0] (by simp) ?_ ?_
  · intro v hv
    have n0 : float32.Number 0 := ⟨0, 0, by decide, by decide, by simp⟩
    simp only [List.mem_cons, List.not_mem_nil, or_false] at hv
    rcases hv with rfl | rfl
    · exact ⟨⟨1, -37, by decide, by decide, by simp⟩, n0, n0⟩
    · exact ⟨n0, n0, n0⟩
  · have s0 : square32 0 = 0 := by unfold square32; rw [mul_zero, fl_zero]
    have s1 : square32 (2 ^ (-37 : ℤ)) = 2 ^ (-74 : ℤ) := by
      unfold square32; rw [two, num _ (by decide)]; norm_num
    have s2 : square32 (2 ^ (-74 : ℤ)) = 2 ^ (-148 : ℤ) := by
      unfold square32; rw [two, num _ (by decide)]; norm_num
    have s3 : square32 (2 ^ (-75 : ℤ)) = 0 := by
      unfold square32
      rw [two]
      have := fl_rel float32 ((2 : ℝ) ^ (-75 + -75 : ℤ))
      unfold Format.fl
      have hexp : float32.exp ((2 : ℝ) ^ (-75 + -75 : ℤ)) = -149 := by
        unfold Format.exp
        rw [abs_of_pos (zpow_pos (by norm_num) _)]
        have hl : Int.log 2 ((2 : ℝ) ^ (-75 + -75 : ℤ)) = -150 := by
          have := Int.log_zpow (R := ℝ) (b := 2) (by norm_num) (-75 + -75 : ℤ)
          exact_mod_cast this
        rw [hl]
        decide
      rw [hexp]
      have e : (2 : ℝ) ^ (-75 + -75 : ℤ) / 2 ^ (-149 : ℤ) = 1 / 2 := by
        rw [← zpow_sub₀ (by norm_num)]
        norm_num
      rw [e, roundEven_eq (n := 0) (by norm_num) (by norm_num)]
      simp
    have q1 : sq32 sumLeft ((2 : ℝ) ^ (-37 : ℤ), 0, 0) = 2 ^ (-74 : ℤ) := by
      unfold sq32 sumLeft
      simp only [s0, s1, List.foldl_cons, List.foldl_nil, add_zero]
      rw [num _ (by decide), num _ (by decide)]
    have q0 : sq32 sumLeft 0 = 0 := by
      unfold sq32 sumLeft
      simp only [Prod.fst_zero, Prod.snd_zero, s0, List.foldl_cons, List.foldl_nil, add_zero, z32]
    have m (k : ℤ) (hk : -148 ≤ k) : mean32 sumLeft [(2 : ℝ) ^ k, 0] = 2 ^ (k - 1) := by
      unfold mean32 sumLeft
      simp only [List.foldl_cons, List.foldl_nil, add_zero, List.length_cons, List.length_nil]
      rw [num _ (by omega)]
      push_cast
      rw [half, num64 _ (by omega), num _ (by omega)]
    unfold alpha32
    simp only [List.map_cons, List.map_nil, q1, q0, s2, s0]
    rw [m _ (by decide), m _ (by decide), show (-74 : ℤ) - 1 = -75 from rfl, s3, mul_zero, fl_zero]
    exact ratio_error _ (zpow_ne_zero _ (by norm_num))

end Verif.Rounding
