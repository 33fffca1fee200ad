import Mathlib.Algebra.Order.BigOperators.Group.Finset
import Verif.Pipeline.Lemmas
import Verif.Pipeline.SharesSpec
/-!
# Averages and proportions
-/

namespace Verif.Pipeline

open Verif.Motion Verif.Dynamics

theorem share_le_add {N : ℕ} {p q r : Fin N → Prop} (h : ∀ m, p m → q m ∨ r m) :
    share p ≤ share q + share r := by
  classical
  unfold share
  rw [← add_div]
  gcongr
  have : Finset.univ.filter p ⊆ Finset.univ.filter q ∪ Finset.univ.filter r := by
    intro m hm
    simp only [Finset.mem_filter, Finset.mem_univ, true_and, Finset.mem_union] at hm ⊢
    exact h m hm
  have h2 := (Finset.card_le_card this).trans (Finset.card_union_le _ _)
  have h3 : ∀ (s : Fin N → Prop) (i j : DecidablePred s), (@Finset.filter _ s i Finset.univ).card =
      (@Finset.filter _ s j Finset.univ).card := fun s i j => by congr
  rw [h3 p _ (fun a => Classical.propDecidable (p a)), h3 q _ (fun a => Classical.propDecidable (q a)),
    h3 r _ (fun a => Classical.propDecidable (r a))] at h2
  exact_mod_cast h2

theorem share_congr {N : ℕ} {p q : Fin N → Prop} (h : ∀ m, p m ↔ q m) : share p = share q := by
  rw [show p = q from funext fun m => propext (h m)]

/-- A mean is bounded by what holds for the molecules with a property and what holds for the others. -/
theorem avg_ge {N : ℕ} (hN : 0 < N) (f : Fin N → ℝ) (p : Fin N → Prop) (a b : ℝ) (h1 : ∀ m, p m → b ≤ f m)
    (h2 : ∀ m, ¬ p m → a ≤ f m) : a - (a - b) * share p ≤ avg f := by
  classical
  have hN' : (0 : ℝ) < N := by exact_mod_cast hN
  unfold avg share
  rw [le_div_iff₀ hN', sub_mul, mul_assoc, div_mul_cancel₀ _ hN'.ne']
  have : ∑ m, (if p m then b else a) ≤ ∑ m, f m := by
    apply Finset.sum_le_sum
    intro m _
    split
    · exact h1 m ‹_›
    · exact h2 m ‹_›
  refine le_trans (le_of_eq ?_) this
  rw [Finset.sum_ite, Finset.sum_const, Finset.sum_const, nsmul_eq_mul, nsmul_eq_mul]
  have h := Finset.card_filter_add_card_filter_not (s := (Finset.univ : Finset (Fin N))) p
  rw [Finset.card_univ, Fintype.card_fin] at h
  have h' : ((Finset.univ.filter p).card : ℝ) + ((Finset.univ.filter (fun m => ¬ p m)).card : ℝ) = N := by
    exact_mod_cast h
  have h3 : ∀ (s : Fin N → Prop) (i j : DecidablePred s), (@Finset.filter _ s i Finset.univ).card =
      (@Finset.filter _ s j Finset.univ).card := fun s i j => by congr
  rw [h3 p (fun a => Classical.propDecidable (p a)) inferInstance]
  rw [← h']
  ring

theorem FirstBeyond.le {n : ℕ} {time : ℕ → ℤ} {x : ℕ → ℝ} {thr : ℝ} {v : ℤ} (h : FirstBeyond n time x thr v)
    {i : ℕ} (hi : i ≤ n) (hx : thr < x i) : v ≤ time i :=
  h.2 (Or.inr ⟨i, hi, hx, rfl⟩)

end Verif.Pipeline
