import Verif.Pipeline.SharesProps
/-!
# Property C146: exactly when the two tables agree
-/

namespace Verif.Pipeline

open Verif.Motion Verif.Dynamics Verif.Relax Verif.Gsd Verif.Process Verif.Cache

variable {N : ℕ} {ν ι : Type} [DecidableEq ι]

theorem share_eq_iff {p q : Fin N → Prop} (hN : 0 < N) (h : ∀ m, p m → q m) : share p = share q ↔ ∀ m, q m → p m := by
  classical
  constructor
  · intro he m hm
    unfold share at he
    have hN' : (N : ℝ) ≠ 0 := by exact_mod_cast hN.ne'
    rw [div_left_inj' hN'] at he
    have hc : (Finset.univ.filter p).card = (Finset.univ.filter q).card := by exact_mod_cast he
    have hs : Finset.univ.filter p ⊆ Finset.univ.filter q := by
      intro x hx
      rw [Finset.mem_filter] at hx ⊢
      exact ⟨hx.1, h x hx.2⟩
    have := Finset.eq_of_subset_of_card_le hs hc.ge
    have hmq : m ∈ Finset.univ.filter q := by simp [hm]
    rw [← this] at hmq
    exact (Finset.mem_filter.1 hmq).2
  · intro hqp
    exact share_congr (fun m => ⟨h m, hqp m⟩)

/-- **C146, exactly.**  When no molecule is exactly at the distance in this frame, "com_struct" is the proportion of the
molecules whose tau_F is later iff no molecule that is within the distance in this frame was beyond it in one before. -/
theorem C146_exactly (hN : 10 ≤ N) (a : Args) (vars : Except PyErr ν) (c : Cell)
    (hdim : decide (a.mol.dimensions = 2) = c.is2D) (hmol : a.mol.positions ≠ []) {κ : ℝ} (hκ : 0 < κ)
    (hdef : a.relaxations = none) {pairs : List (List ι × GFrame PData)} {ending : Option PyErr}
    {file file' : File (Rec ι (Dict Quantity Val) (Dict String ℤ) ν)}
    {out : Option (List (Rec ι (Dict Quantity Val) (Dict String ℤ) ν))}
    (h : processFile (env a vars) (some (pairs, ending)) true file = (file', .ok out)) (k : ι)
    {n : ℕ} {t : ℕ → ℤ} {box : ℕ → List ℝ} {u s : ℕ → Fin N → V3} {θ σ : ℕ → Fin N → ℝ}
    {o : ℕ → Option (Fin N → Quat)} (hbox : box 0 = c.array) (hF : Follows c n u s θ σ o)
    (hw : a.wave = some κ)
    (hk : framesOf k (visitsOf (env a vars) pairs) = gframes t box s o n) (τ : Fin N → ℤ)
    (hτ : ∀ m : Fin N, molCell ((rows file' "molecular_relaxations").filterMap (molOf k)) m "tau_F" =
      some (τ m)) (ht : StrictMono t) (hmax : ∀ i ≤ n, t i - t 0 < 2 ^ 32 - 1)
    (i : ℕ) (hi : i ≤ n) (hex : ∀ m, len (c.flat (u i m - u 0 m)) ≠ Real.pi / (2 * κ)) :
    ∃ row x, ((rows file' "dynamics").filterMap (dynOf k))[i]? = some row ∧ Reports row .com_struct x ∧
      (x = share (fun m => t i - t 0 < τ m) ↔
        ∀ m, len (c.flat (u i m - u 0 m)) < Real.pi / (2 * κ) →
          ∀ j ≤ i, len (c.flat (u j m - u 0 m)) ≤ Real.pi / (2 * κ)) := by
  have hw' : waveOf a.calcWave c.box (List.ofFn (s 0)) a.wave = .ok κ := by rw [hw]; rfl
  obtain ⟨row, h1, h2, h3⟩ := (C91_true_motion hN a vars c hdim hmol hκ hdef h k hbox hF hw' hk).2 i hi
  refine ⟨row, share (fun m => len (c.flat (u i m - u 0 m)) < Real.pi / (2 * κ)), h1, (h3 κ hw).1, ?_⟩
  have key : ∀ m, t i - t 0 < τ m ↔ ∀ j ≤ i, len (c.flat (u j m - u 0 m)) ≤ Real.pi / (2 * κ) := by
    intro m
    obtain ⟨D, F, L, T2, T3, T4, hc, -, hF', -⟩ :=
      C93_relaxations hN a vars c hdim hmol hκ hdef h k hbox hF hw' hk m
    have : F = τ m := by
      have := hc ("tau_F", F) (by simp)
      rw [hτ m] at this
      exact (Option.some.inj this).symm
    subst this
    constructor
    · intro hm j hj
      by_contra hlt
      have h5 := hF'.le (i := j) (le_trans hj hi) (not_le.1 hlt)
      have h6 := ht.monotone hj
      omega
    · intro hm
      rcases hF'.1 with h5 | ⟨j, hj, h5, h6⟩
      · rw [h5]
        exact hmax i hi
      · rw [h6]
        beta_reduce
        have : i < j := by
          by_contra hij
          exact absurd (hm j (not_lt.1 hij)) (not_le.2 h5)
        have := ht this
        omega
  rw [eq_comm, share_eq_iff (by omega)]
  · simp only [key]
  · intro m hm
    exact lt_of_le_of_ne ((key m).1 hm i le_rfl) (hex m)

/-- The molecules of the witness of `C146_refuted` are beyond the distance π/4 in the second frame and back in the third. -/
example (m : Fin 10) : len (tC.flat (rU 2 m - rU 0 m)) < Real.pi / (2 * 2) ∧
    ¬ len (tC.flat (rU 1 m - rU 0 m)) ≤ Real.pi / (2 * 2) := by
  have h2 : len (tC.flat (rU 2 m - rU 0 m)) = 0 := by simp [rU, tC, Cell.flat, len, len2]
  have h1 : len (tC.flat (rU 1 m - rU 0 m)) = 1 := by simp [rU, tC, Cell.flat, len, len2]
  have hpi := Real.pi_pos
  have hpi4 := Real.pi_lt_d2
  rw [h1, h2]
  exact ⟨by positivity, by linarith⟩

end Verif.Pipeline
