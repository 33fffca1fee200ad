import Verif.Rounding.FlLemmas
import Verif.Rounding.StoreSpec
import Verif.Motion.Lemmas
/-!
# The rounded displacement in closed form
-/

namespace Verif.Rounding

open Verif.Motion

/-- The displacements after `n` further frames. -/
noncomputable def disp32 {N : ℕ} (wrap : V3 → V3) (s : ℕ → Fin N → V3) : ℕ → Fin N → V3
  | 0, _ => 0
  | n + 1, m => fl3 (disp32 wrap s n m - wrap (fl3 (s n m - s (n + 1) m)))

theorem transAdd32_ofFn {N : ℕ} (wrap : V3 → V3) (dT s s' : Fin N → V3) :
    transAdd32 wrap (List.ofFn dT) (List.ofFn s) (List.ofFn s') =
      .ok (List.ofFn (fun m => fl3 (dT m - wrap (fl3 (s m - s' m))))) := by
  unfold transAdd32
  simp only [bcast_ofFn, map_ofFn', inplace_ofFn]

theorem trackLoop32_append (wrap : V3 → V3) (s : ℕ → List V3) (d : List V3) (n : ℕ) :
    trackLoop32 wrap d (s 0) ((List.range (n + 1)).map (fun i => s (i + 1))) =
      match trackLoop32 wrap d (s 0) ((List.range n).map (fun i => s (i + 1))) with
      | .ok d' => transAdd32 wrap d' (s n) (s (n + 1))
      | .error e => .error e := by
  induction n generalizing s d with
  | zero =>
    simp only [zero_add, List.range_one, List.map_cons, List.map_nil, trackLoop32, List.range_zero]
    cases transAdd32 wrap d (s 0) (s 1) <;> rfl
  | succ n ih =>
    have hr (k : ℕ) : (List.range (k + 1)).map (fun i => s (i + 1)) =
        s 1 :: (List.range k).map (fun i => s (i + 1 + 1)) := by
      rw [List.range_succ_eq_map, List.map_cons, List.map_map]; rfl
    rw [hr, hr]
    simp only [trackLoop32]
    cases h : transAdd32 wrap d (s 0) (s 1) with
    | error e => rfl
    | ok d' => exact ih (fun i => s (i + 1)) d'

theorem track32_closed {N : ℕ} (wrap : V3 → V3) (s : ℕ → Fin N → V3) (n : ℕ) :
    track32 wrap (List.ofFn (s 0)) ((List.range n).map (fun i => List.ofFn (s (i + 1)))) =
      .ok (List.ofFn (disp32 wrap s n)) := by
  unfold track32
  have h0 : (List.ofFn (s 0)).map (fun _ => (0 : V3)) = List.ofFn (disp32 wrap s 0) := by
    rw [map_ofFn']; rfl
  rw [h0]
  induction n with
  | zero => rfl
  | succ n ih =>
    have := trackLoop32_append wrap (fun i => List.ofFn (s i)) (List.ofFn (disp32 wrap s 0)) n
    rw [this, ih]
    exact transAdd32_ofFn wrap _ _ _

theorem fl3_exact {v : V3} (h : float32.Number v.1 ∧ float32.Number v.2.1 ∧ float32.Number v.2.2) :
    fl3 v = v := by
  unfold fl3
  rw [fl_exact float32 (by decide) h.1, fl_exact float32 (by decide) h.2.1,
    fl_exact float32 (by decide) h.2.2]

theorem number_grid {e : ℤ} (he : -149 ≤ e) {x : ℝ} (hx : OnGrid (2 ^ e) x)
    (hb : |x| ≤ 2 ^ (24 + e)) : float32.Number x := by
  obtain ⟨m, rfl⟩ := hx
  refine ⟨m, e, ?_, he, rfl⟩
  have h0 : (0 : ℝ) < 2 ^ e := zpow_pos (by norm_num) _
  rw [abs_mul, abs_of_pos h0, zpow_add₀ (by norm_num)] at hb
  have := le_of_mul_le_mul_right hb h0
  exact_mod_cast this

theorem fl3_grid {e : ℤ} (he : -149 ≤ e) {v : V3} (hx : OnGrid3 (2 ^ e) v)
    (hb : Within (2 ^ (24 + e)) v) : fl3 v = v :=
  fl3_exact ⟨number_grid he hx.1 hb.1, number_grid he hx.2.1 hb.2.1, number_grid he hx.2.2 hb.2.2⟩

theorem OnGrid.sub {q x y : ℝ} (hx : OnGrid q x) (hy : OnGrid q y) : OnGrid q (x - y) := by
  obtain ⟨a, rfl⟩ := hx
  obtain ⟨b, rfl⟩ := hy
  exact ⟨a - b, by push_cast; ring⟩

theorem OnGrid3.sub {q : ℝ} {x y : V3} (hx : OnGrid3 q x) (hy : OnGrid3 q y) : OnGrid3 q (x - y) :=
  ⟨hx.1.sub hy.1, hx.2.1.sub hy.2.1, hx.2.2.sub hy.2.2⟩

theorem OnGrid3.flat {q : ℝ} {x : V3} (c : Cell) (hx : OnGrid3 q x) : OnGrid3 q (c.flat x) := by
  unfold Cell.flat
  split
  · exact ⟨hx.1, hx.2.1, ⟨0, by simp⟩⟩
  · exact hx

theorem Within.flat {B : ℝ} {x : V3} (c : Cell) (hx : Within B x) : Within B (c.flat x) := by
  unfold Cell.flat
  split
  · exact ⟨hx.1, hx.2.1, by simpa using (abs_nonneg _).trans hx.1⟩
  · exact hx

/-- One coordinate of one step: the error grows by the error of the wrap and one rounding. -/
theorem step_error {t w d a e ε B : ℝ} (ht : |t - a| ≤ e) (hw : |w + d| ≤ ε) (hB : |a + d| ≤ B) :
    |float32.fl (t - w) - (a + d)| ≤
      (1 + 2 ^ (-24 : ℤ)) * (e + ε) + (2 ^ (-24 : ℤ) * B + 2 ^ (-150 : ℤ)) := by
  have h := fl_rel float32 (t - w)
  have e1 : (-((float32.digits : ℕ) : ℤ)) = -24 := rfl
  have e2 : float32.emin - 1 = -150 := rfl
  rw [e1, e2] at h
  have h1 : |(t - w) - (a + d)| ≤ e + ε := by
    rw [show (t - w) - (a + d) = (t - a) - (w + d) by ring]
    exact (abs_sub _ _).trans (add_le_add ht hw)
  have h2 : |t - w| ≤ e + ε + B := by
    have : t - w = ((t - w) - (a + d)) + (a + d) := by ring
    rw [this]
    exact (abs_add_le _ _).trans (add_le_add h1 hB)
  have h3 : |float32.fl (t - w) - (a + d)| ≤ |float32.fl (t - w) - (t - w)| + |(t - w) - (a + d)| := by
    have : float32.fl (t - w) - (a + d) = (float32.fl (t - w) - (t - w)) + ((t - w) - (a + d)) := by ring
    rw [this]; exact abs_add_le _ _
  have hu : (0 : ℝ) < 2 ^ (-24 : ℤ) := zpow_pos (by norm_num) _
  nlinarith

/-- The errors of `n` steps. -/
theorem sum_error (E : ℕ → ℝ) {μ ε β : ℝ} (hμ : 0 ≤ μ) (hε : 0 ≤ ε) (hβ : 0 ≤ β) (h0 : E 0 ≤ 0) {n : ℕ}
    (h : ∀ i < n, E (i + 1) ≤ (1 + μ) * (E i + ε) + β) :
    ∀ i ≤ n, E i ≤ i * (1 + μ) ^ i * (ε + β) := by
  intro i
  induction i with
  | zero => intro _; simpa using h0
  | succ i ih =>
    intro hi
    have h1 := ih (by omega)
    have h2 := h i (by omega)
    have hp : (1 : ℝ) ≤ (1 + μ) ^ (i + 1) := one_le_pow₀ (by linarith)
    have hp' : (1 + μ) ≤ (1 + μ) ^ (i + 1) := le_self_pow₀ (by linarith) (by omega)
    have h3 : (1 + μ) * E i ≤ (1 + μ) * (i * (1 + μ) ^ i * (ε + β)) :=
      mul_le_mul_of_nonneg_left h1 (by linarith)
    have h4 : (1 + μ) * (i * (1 + μ) ^ i * (ε + β)) = i * (1 + μ) ^ (i + 1) * (ε + β) := by
      rw [pow_succ]; ring
    have h5 : (1 + μ) * ε ≤ (1 + μ) ^ (i + 1) * ε := mul_le_mul_of_nonneg_right hp' hε
    have h6 : β ≤ (1 + μ) ^ (i + 1) * β := le_mul_of_one_le_left hβ hp
    push_cast
    nlinarith

end Verif.Rounding
