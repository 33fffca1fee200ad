import Verif.Rounding.TrackExample
/-!
# C116: displacements in single precision
-/

namespace Verif.Rounding

open Verif.Motion

/-- **C116**, what holds: the error.  `u i m` is the true position, `s i m` any stored image of it as
float32, no step is half the cell (as in C29).  When freud's `wrap` gives every step up to `ε` in each
coordinate and no molecule gets further than `B` from its start, the displacement after `n` frames is
right up to `n` times a rounding error of `B` and `ε`.  Full statement (false, see `C116_refuted`): the
displacement is right up to a fixed fraction of itself, however many frames there are. -/
theorem C116_error_partial (c : Cell) (wrap : V3 → V3) {N : ℕ} (u s : ℕ → Fin N → V3) (n : ℕ) {ε B : ℝ}
    (hwrap : ∀ i < n, ∀ m, Within ε (wrap (fl3 (s i m - s (i + 1) m)) + c.flat (u (i + 1) m - u i m)))
    (hB : ∀ i ≤ n, ∀ m, Within B (c.flat (u i m - u 0 m))) (hε : 0 ≤ ε) (hB0 : 0 ≤ B) :
    ∃ d : Fin N → V3,
      track32 wrap (List.ofFn (s 0)) ((List.range n).map (fun i => List.ofFn (s (i + 1)))) =
        .ok (List.ofFn d) ∧
      ∀ m, Within (n * (1 + 2 ^ (-24 : ℤ)) ^ n * (ε + (2 ^ (-24 : ℤ) * B + 2 ^ (-150 : ℤ))))
        (d m - c.flat (u n m - u 0 m)) := by
  refine ⟨disp32 wrap s n, track32_closed wrap s n, fun m => ?_⟩
  have hu : (0 : ℝ) ≤ 2 ^ (-24 : ℤ) := (zpow_pos (by norm_num) _).le
  have hu' : (0 : ℝ) ≤ 2 ^ (-150 : ℤ) := (zpow_pos (by norm_num) _).le
  have hβ : (0 : ℝ) ≤ 2 ^ (-24 : ℤ) * B + 2 ^ (-150 : ℤ) := by
    have := mul_nonneg hu hB0; linarith
  have hsplit (i : ℕ) : c.flat (u (i + 1) m - u 0 m) =
      c.flat (u i m - u 0 m) + c.flat (u (i + 1) m - u i m) := by
    rw [← flat_add]; congr 1; abel
  have hzero : c.flat (u 0 m - u 0 m) = 0 := by
    rw [sub_self]; unfold Cell.flat; split <;> rfl
  have coord (f : V3 → ℝ) (hf : ∀ x y : V3, f (x + y) = f x + f y) (hf' : ∀ x y : V3, f (x - y) = f x - f y)
      (hfl : ∀ x, f (fl3 x) = float32.fl (f x)) (hw : ∀ b x, Within b x → |f x| ≤ b) :
      |f (disp32 wrap s n m - c.flat (u n m - u 0 m))| ≤
        n * (1 + 2 ^ (-24 : ℤ)) ^ n * (ε + (2 ^ (-24 : ℤ) * B + 2 ^ (-150 : ℤ))) := by
    have hf0 : f 0 = 0 := by have := hf 0 0; rw [add_zero] at this; linarith
    refine sum_error (fun i => |f (disp32 wrap s i m - c.flat (u i m - u 0 m))|) hu hε hβ ?_ (n := n) ?_
      n le_rfl
    · simp only [disp32, hzero, sub_zero]
      rw [hf0, abs_zero]
    · intro i hi
      rw [hf', hf' (disp32 wrap s i m), hsplit, hf, disp32, hfl, hf']
      refine step_error le_rfl ?_ ?_
      · rw [← hf]; exact hw _ _ (hwrap i hi m)
      · rw [← hf, ← hsplit]; exact hw _ _ (hB (i + 1) (by omega) m)
  exact ⟨coord (fun v => v.1) (fun _ _ => rfl) (fun _ _ => rfl) (fun _ => rfl) (fun _ _ h => h.1),
    coord (fun v => v.2.1) (fun _ _ => rfl) (fun _ _ => rfl) (fun _ => rfl) (fun _ _ h => h.2.1),
    coord (fun v => v.2.2) (fun _ _ => rfl) (fun _ _ => rfl) (fun _ => rfl) (fun _ _ h => h.2.2)⟩

/-- Four frames of the walk of the examples, with a `wrap` that is off by 1/1000. -/
example : ∃ wrap : V3 → V3,
    (∀ i < 3, ∀ m, Within (1 / 1000) (wrap (fl3 (walkStored i m - walkStored (i + 1) m)) +
      square8.flat ((walk (i + 1), 0, 0) - (walk i, 0, 0)))) ∧
    (∀ i ≤ 3, Within 3 (square8.flat ((walk i, 0, 0) - (walk 0, 0, 0)))) := by
  refine ⟨fun v => square8.box.wrap v + (1 / 1000, 0, 0), fun i _ m => ?_, fun i hi => ?_⟩
  · have := walk_wrap square8.box.wrap (fun _ _ _ => rfl) i m
    simp only [this]
    simp [Within, square8, Cell.flat]
    rw [show walk i - walk (i + 1) + (1000 : ℝ)⁻¹ + (walk (i + 1) - walk i) = 1000⁻¹ by ring,
      abs_of_pos (by norm_num)]
  · have h : walk i = i := by unfold walk; rw [if_pos (by omega)]
    have h0 : walk 0 = 0 := by simp [walk]
    rw [h, h0]
    simp [Within, square8, Cell.flat]
    exact hi

/-- **C116**, what holds: no error at all for positions on a grid, as long as the displacements are no
longer than 2^24 steps of the grid and `wrap` is exact for differences of stored positions. -/
theorem C116_grid_partial (c : Cell) (hc : c.Proper) (b : Box)
    (hb : createFreudBox c.array c.is2D = .ok b) (wrap : V3 → V3) {N : ℕ} (u s : ℕ → Fin N → V3) (n : ℕ)
    {e : ℤ} (he : -149 ≤ e) (hs : ∀ i ≤ n, ∀ m, c.Lattice (c.flat (s i m - u i m)))
    (hu : ∀ i < n, ∀ m, c.WithinHalf (c.flat (u (i + 1) m - u i m)))
    (hsg : ∀ i ≤ n, ∀ m, OnGrid3 (2 ^ e) (s i m)) (hug : ∀ i ≤ n, ∀ m, OnGrid3 (2 ^ e) (u i m))
    (hsb : ∀ i < n, ∀ m, Within (2 ^ (24 + e)) (s i m - s (i + 1) m))
    (hub : ∀ i ≤ n, ∀ m, Within (2 ^ (24 + e)) (u i m - u 0 m))
    (hwrap : ∀ i < n, ∀ m, wrap (s i m - s (i + 1) m) = b.wrap (s i m - s (i + 1) m)) :
    track32 wrap (List.ofFn (s 0)) ((List.range n).map (fun i => List.ofFn (s (i + 1)))) =
      .ok (List.ofFn (fun m => c.flat (u n m - u 0 m))) := by
  have hb' : b = c.box := by
    rw [createFreudBox_cell] at hb
    exact (Except.ok.inj hb).symm
  subst hb'
  rw [track32_closed]
  congr 2
  funext m
  have key : ∀ i ≤ n, disp32 wrap s i m = c.flat (u i m - u 0 m) := by
    intro i
    induction i with
    | zero => intro _; rw [sub_self]; unfold Cell.flat; split <;> rfl
    | succ i ih =>
      intro hi
      rw [disp32, ih (by omega), fl3_grid he ((hsg i (by omega) m).sub (hsg (i + 1) hi m)) (hsb i (by omega) m),
        hwrap i (by omega) m, wrap_step c hc _ _ _ _ (hs i (by omega) m) (hs (i + 1) hi m) (hu i (by omega) m),
        sub_neg_eq_add, ← flat_add, show u i m - u 0 m + (u (i + 1) m - u i m) = u (i + 1) m - u 0 m by abel]
      exact fl3_grid he (((hug (i + 1) hi m).sub (hug 0 (by omega) m)).flat c)
        ((hub (i + 1) hi m).flat c)
  exact key n le_rfl

/-- The first four frames of the walk. -/
example : (∀ i ≤ 3, ∀ m, square8.Lattice (square8.flat (walkStored i m - (walk i, 0, 0)))) ∧
    (∀ i < 3, square8.WithinHalf (square8.flat ((walk (i + 1), 0, 0) - (walk i, 0, 0)))) ∧
    (∀ i ≤ 3, ∀ m, OnGrid3 (2 ^ (-16 : ℤ)) (walkStored i m)) ∧
    (∀ i < 3, ∀ m, Within (2 ^ (24 + (-16) : ℤ)) (walkStored i m - walkStored (i + 1) m)) := by
  refine ⟨fun i _ m => walk_image i, fun i _ => walk_half i, fun i _ m => walkStored_grid i m,
    fun i _ m => ?_⟩
  have h8 : (8 : ℝ) ≤ 2 ^ (24 + (-16) : ℤ) := by norm_num
  have h := walkStored_diff i m
  exact ⟨h.1.trans h8, h.2.1.trans h8, h.2.2.trans h8⟩

/-- **C116**, what goes wrong, whatever `wrap` computes: once a molecule has a displacement of at least
`2 ^ k` in x, steps below `2 ^ (k - 25)` leave it as it is, however many there are. -/
theorem C116_stuck {N : ℕ} (wrap : V3 → V3) (s : ℕ → Fin N → V3) (m : Fin N) (j : ℕ) (k : ℤ)
    (hk : -125 ≤ k) (d : ℕ → Fin N → V3)
    (hd : ∀ n, track32 wrap (List.ofFn (s 0)) ((List.range n).map (fun i => List.ofFn (s (i + 1)))) =
      .ok (List.ofFn (d n)))
    (hfar : (2 : ℝ) ^ k ≤ |(d j m).1|)
    (hsmall : ∀ i ≥ j, |(wrap (fl3 (s i m - s (i + 1) m))).1| < 2 ^ (k - 25)) :
    ∀ n ≥ j, (d n m).1 = (d j m).1 := by
  have hd' : ∀ n, d n = disp32 wrap s n := by
    intro n
    have h1 := hd n
    rw [track32_closed] at h1
    exact (List.ofFn_injective (Except.ok.inj h1)).symm
  simp only [hd'] at hfar ⊢
  have hnum : ∀ n, float32.Number (disp32 wrap s n m).1 := by
    intro n
    cases n with
    | zero => exact ⟨0, 0, by norm_num, by decide, by simp [disp32]⟩
    | succ n => exact fl_number float32 _
  intro n hn
  induction n, hn using Nat.le_induction with
  | base => rfl
  | succ n hn ih =>
    have h : (disp32 wrap s (n + 1) m).1 =
        float32.fl ((disp32 wrap s n m).1 - (wrap (fl3 (s n m - s (n + 1) m))).1) := rfl
    rw [h, fl_absorb float32 (by decide) (hnum n) (k := k) (by rw [ih]; exact hfar)
      (by show (-149 : ℤ) + 24 ≤ k; omega) ?_, ih]
    have e : k - ((float32.digits : ℕ) : ℤ) - 1 = k - 25 := by
      show k - 24 - 1 = k - 25; ring
    rw [e]
    exact hsmall n hn

/-- The walk from frame 1024 on. -/
example : (2 : ℝ) ^ (10 : ℤ) ≤ |(disp32 square8.box.wrap walkStored 1024 0).1| ∧
    ∀ i ≥ 1024, |(square8.box.wrap (fl3 (walkStored i 0 - walkStored (i + 1) 0))).1| <
      2 ^ ((10 : ℤ) - 25) := by
  constructor
  · have := walk_stuck square8.box.wrap (fun _ _ _ => rfl) 0 0
    rw [add_zero] at this
    rw [this]
    norm_num
  · intro i hi
    rw [walk_wrap square8.box.wrap (fun _ _ _ => rfl) i 0, walk_step_high hi]
    norm_num

/-- **C116** is false: no fraction below 1 bounds the error.  After 1024 steps of length 1 steps of 2^-16
are lost, every one of them. -/
theorem C116_refuted (wrap : V3 → V3) (hw : ExactOnGrid wrap) {c : ℝ} (hc : c < 1) :
    ¬ Follows wrap square8 c := by
  intro h
  -- far enough that 1024 is a small part of the way
  obtain ⟨j, hj⟩ := exists_nat_gt (1024 * 2 ^ 16 * c / (1 - c))
  rw [div_lt_iff₀ (by linarith)] at hj
  have hzero : OnGrid (2 ^ (-16 : ℤ)) 0 := ⟨0, by simp⟩
  obtain ⟨d, hd, herr⟩ := h (1024 + j) (fun i => (walk i, 0, 0)) (fun i => (walkImage i, 0, 0))
    (fun i _ => ⟨number_grid (by norm_num) (walkImage_grid i) ((walkImage_bound i).trans (by norm_num)),
      number_grid (by norm_num) hzero (by norm_num), number_grid (by norm_num) hzero (by norm_num)⟩)
    (fun i _ => walk_image i) (fun i _ => walk_half i)
    (fun i _ => by
      by_cases hi : i < 1024
      · show walk i ≤ walk (i + 1); rw [walk_step_low hi]; linarith
      · show walk i ≤ walk (i + 1)
        rw [walk_step_high (by omega)]
        have : (0 : ℝ) < 2 ^ (-16 : ℤ) := zpow_pos (by norm_num) _
        linarith)
  have hs := track32_closed wrap walkStored (1024 + j)
  simp only [List.ofFn_succ, List.ofFn_zero, walk_stuck wrap hw j, walkStored] at hs
  rw [hs] at hd
  have hd' : d = (1024, 0, 0) := by
    have := Except.ok.inj hd
    simpa using this.symm
  have hw0 : walk 0 = 0 := by simp [walk]
  have hwj : walk (1024 + j) = 1024 + j * 2 ^ (-16 : ℤ) := by
    unfold walk
    split
    · obtain rfl : j = 0 := by omega
      push_cast; ring
    · push_cast; ring
  simp only [hd', hw0, hwj] at herr
  have hp : (2 : ℝ) ^ (-16 : ℤ) = 1 / 2 ^ 16 := by rw [zpow_neg]; norm_num
  rw [hp] at herr
  have hj0 : (0 : ℝ) ≤ j := Nat.cast_nonneg j
  have e : (1024 : ℝ) - (1024 + j * (1 / 2 ^ 16) - 0) = -(j * (1 / 2 ^ 16)) := by ring
  rw [e, abs_neg, abs_of_nonneg (by positivity)] at herr
  have h2 : (j : ℝ) ≤ c * (1024 * 2 ^ 16 + j) := by
    have := mul_le_mul_of_nonneg_right herr (by norm_num : (0 : ℝ) ≤ 2 ^ 16)
    have e1 : (j : ℝ) * (1 / 2 ^ 16) * 2 ^ 16 = j := by ring
    have e2 : c * (1024 + j * (1 / 2 ^ 16) - 0) * 2 ^ 16 = c * (1024 * 2 ^ 16 + j) := by ring
    rw [e1, e2] at this
    exact this
  nlinarith

/-- A `wrap` without rounding errors. -/
example : ExactOnGrid square8.box.wrap := fun _ _ _ => rfl

end Verif.Rounding
