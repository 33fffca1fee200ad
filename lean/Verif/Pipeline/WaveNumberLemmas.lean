import Verif.Pipeline.Spec
/-!
# Times at smaller thresholds are not later
-/

namespace Verif.Pipeline

theorem FirstBeyond.mono {n : ℕ} {time : ℕ → ℤ} {x : ℕ → ℝ} {thr thr' : ℝ} {v v' : ℤ}
    (h : FirstBeyond n time x thr v) (h' : FirstBeyond n time x thr' v') (ht : thr' ≤ thr) : v' ≤ v := by
  refine h'.2 ?_
  rcases h.1 with h1 | ⟨i, hi, h1, h2⟩
  · exact Or.inl h1
  · exact Or.inr ⟨i, hi, ht.trans_lt h1, h2⟩

theorem LastLeft.mono {n : ℕ} {time : ℕ → ℤ} {x : ℕ → ℝ} {thr thr' cut cut' : ℝ} {v v' : ℤ}
    (h : LastLeft n time x thr cut v) (h' : LastLeft n time x thr' cut' v') (ht : thr' ≤ thr)
    (hc : cut' ≤ cut) (htime : ∀ i j, i ≤ j → j ≤ n → time i ≤ time j)
    (hmax : ∀ i ≤ n, time i ≤ 2 ^ 32 - 1) : v' ≤ v := by
  rcases h with ⟨h1, rfl⟩ | ⟨i, j, hi, h1, h2, hj, h3, h4, h5, rfl⟩
  · rcases h' with ⟨-, rfl⟩ | ⟨i', j', hi', -, -, hj', -, -, -, rfl⟩
    · exact le_rfl
    · exact hmax _ (hj'.trans hi')
  · rcases h' with ⟨h1', -⟩ | ⟨i', j', hi', h1', h2', hj', h3', h4', h5', rfl⟩
    · exact absurd (h1' i hi) (not_le.2 (hc.trans_lt h1))
    · have hii : i' ≤ i := by
        by_contra hlt
        exact absurd (h2' i (not_le.1 hlt)) (not_le.2 (hc.trans_lt h1))
      refine htime _ _ ?_ (hj.trans hi)
      by_contra hlt
      have hjj : j < j' := not_le.1 hlt
      obtain ⟨l, hl1, hl2, hl3⟩ := h5' j hjj (ht.trans_lt h3)
      have := h4 l hl1 (by omega)
      linarith

end Verif.Pipeline
