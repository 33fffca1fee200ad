import Mathlib.Tactic.NormNum
import Mathlib.Data.List.Forall2
import Mathlib.Data.List.Nodup
import Verif.Dynamics.RunLemmas
/-!
# Lemmas on `structural_relax` and `mobile_overlap`
-/

namespace Verif.Dynamics

open Verif.Motion

/-! ## `structural_relax` -/

open Classical in
theorem structuralRelax_eq (l : List (Option ℝ)) (dist : ℝ) :
    structuralRelax false l dist =
      some ((l.countP (fun x => decide (Below dist x)) : ℝ) / l.length) := by
  unfold structuralRelax
  simp only [Bool.false_and, Bool.false_eq_true, if_false, List.countP_eq_length_filter]
  congr 4
  apply List.filter_congr
  intro x _
  cases x with
  | none => exact (decide_eq_false (p := Below dist none) id).symm
  | some x => exact decide_eq_decide.2 Iff.rfl

/-! ## `mobile_overlap` -/

theorem lastN_subset {α : Type} {l : List α} {k : ℕ} {a : α} (h : a ∈ lastN l k) : a ∈ l := by
  unfold lastN at h
  split at h
  · exact h
  · exact List.mem_of_mem_drop h

theorem lastN_nodup {α : Type} {l : List α} (k : ℕ) (h : l.Nodup) : (lastN l k).Nodup := by
  unfold lastN
  split
  · exact h
  · exact h.sublist (List.drop_sublist _ _)

theorem lastN_length {α : Type} {l : List α} {k : ℕ} (hk : 0 < k) (h : k ≤ l.length) :
    (lastN l k).length = k := by
  unfold lastN
  rw [if_neg hk.ne', List.length_drop]
  omega

theorem Sorts.nodup {argsort : List ℝ → List ℕ} (h : Sorts argsort) (l : List ℝ) :
    (argsort l).Nodup := ((h l).1.nodup_iff).2 List.nodup_range

theorem Sorts.length {argsort : List ℝ → List ℕ} (h : Sorts argsort) (l : List ℝ) :
    (argsort l).length = l.length := by rw [(h l).1.length_eq, List.length_range]

/-- The number of common elements. -/
theorem common_card {a b : List ℕ} (ha : a.Nodup) :
    (a.dedup.filter (fun i => decide (i ∈ b))).length = (a.toFinset ∩ b.toFinset).card := by
  rw [ha.dedup, ← List.toFinset_card_of_nodup (ha.filter _)]
  congr 1
  ext x
  simp

/-- The indices with fewer than `k` larger values. -/
theorem mem_lastN_iff {argsort : List ℝ → List ℕ} (hs : Sorts argsort) {n : ℕ} {f : Fin n → ℝ}
    (hf : Function.Injective f) {k : ℕ} (hk : 0 < k) (i : Fin n) :
    i.val ∈ lastN (argsort (List.ofFn f)) k ↔
      (Finset.univ.filter (fun j => f i < f j)).card < k := by
  obtain ⟨hp, hsort⟩ := hs (List.ofFn f)
  have hnd := hs.nodup (List.ofFn f)
  rw [List.length_ofFn] at hp
  have hi : i.val ∈ argsort (List.ofFn f) := hp.mem_iff.2 (List.mem_range.2 i.isLt)
  obtain ⟨a, b, hab⟩ := List.append_of_mem hi
  rw [hab] at hp hsort hnd ⊢
  have hlt : ∀ j ∈ a ++ i.val :: b, j < n := fun j hj => List.mem_range.1 (hp.mem_iff.1 hj)
  rw [List.pairwise_append] at hsort
  obtain ⟨-, hb, hab'⟩ := hsort
  rw [List.pairwise_cons] at hb
  have hget : ∀ j : Fin n, (List.ofFn f)[j.val]? = some (f j) := by
    intro j
    simp
  have hcard : (Finset.univ.filter (fun j => f i < f j)).card = b.length := by
    have hbn : b.Nodup := by
      rw [List.nodup_append] at hnd
      exact (List.nodup_cons.1 hnd.2.1).2
    rw [← List.toFinset_card_of_nodup hbn, ← Finset.card_map Fin.valEmbedding]
    congr 1
    ext j
    simp only [Finset.mem_map, Finset.mem_filter, Finset.mem_univ, true_and,
      Fin.valEmbedding_apply, List.mem_toFinset]
    constructor
    · rintro ⟨j, hj, rfl⟩
      have hj' : j.val ∈ a ++ i.val :: b := hp.mem_iff.2 (List.mem_range.2 j.isLt)
      rcases List.mem_append.1 hj' with h | h
      · have := hab' _ h _ List.mem_cons_self _ _ (hget j) (hget i)
        linarith
      · rcases List.mem_cons.1 h with h | h
        · have := Fin.ext h
          subst this
          exact absurd hj (lt_irrefl _)
        · exact h
    · intro hj
      have hjn : j < n := hlt j (by simp [hj])
      refine ⟨⟨j, hjn⟩, ?_, rfl⟩
      have hle := hb.1 j hj _ _ (hget i) (hget ⟨j, hjn⟩)
      refine lt_of_le_of_ne hle ?_
      intro he
      have := hf he
      rw [List.nodup_append] at hnd
      have h2 := (List.nodup_cons.1 hnd.2.1).1
      rw [this] at h2
      exact h2 hj
  rw [hcard]
  unfold lastN
  rw [if_neg hk.ne']
  simp only [List.length_append, List.length_cons]
  have hdrop := List.drop_append (l₁ := a) (l₂ := i.val :: b) (i := a.length + (b.length + 1) - k)
  constructor
  · intro h
    by_contra hlt'
    have hle : a.length + 1 ≤ a.length + (b.length + 1) - k := by omega
    have hnb : i.val ∉ b := by
      rw [List.nodup_append] at hnd
      exact (List.nodup_cons.1 hnd.2.1).1
    have : a.length + (b.length + 1) - k = a.length + (b.length - k) + 1 := by omega
    rw [this] at h
    rw [show (a ++ i.val :: b) = (a ++ [i.val]) ++ b by simp,
      show a.length + (b.length - k) + 1 = (a ++ [i.val]).length + (b.length - k) by simp; omega,
      ← List.drop_drop, List.drop_left] at h
    exact hnb (List.mem_of_mem_drop h)
  · intro hlt'
    rw [hdrop]
    apply List.mem_append_right
    have : a.length + (b.length + 1) - k - a.length = 0 := by omega
    rw [this]
    exact List.mem_cons_self

/-- The number of molecules called mobile among `n`. -/
theorem num_toNat (n : ℕ) (q : ℚ) : (⌊(n : ℚ) * q⌋).toNat = ⌊(n : ℚ) * q⌋₊ := by
  rw [Int.floor_toNat]

theorem mobileOverlap_eq (argsort : List ℝ → List ℕ) (hs : Sorts argsort) (a b : List ℝ) (q : ℚ) :
    mobileOverlap argsort a b q =
      if ⌊(a.length : ℚ) * q⌋₊ = 0 then .error .zeroDivisionError
      else .ok ((((lastN (argsort a) ⌊(a.length : ℚ) * q⌋₊).toFinset ∩
        (lastN (argsort (b.map abs)) ⌊(a.length : ℚ) * q⌋₊).toFinset).card : ℝ) /
          (⌊(a.length : ℚ) * q⌋₊ : ℝ)) := by
  unfold mobileOverlap
  simp only [num_toNat]
  rw [common_card (lastN_nodup _ (hs.nodup a))]

end Verif.Dynamics
