import Mathlib.Data.Finset.Card
import Verif.Order.Spec
/-!
# Neighbour tables: a correct table, and counting
-/

namespace Verif.Order

open Verif.Motion

/-- The candidates of particle `i`. -/
noncomputable def candidates (b : Box) (pos : List V3) (r : ℝ) (i : Nat) : List (Nat × ℝ) :=
  ((List.range pos.length).filter (fun j => decide (j ≠ i ∧ distSq b pos i j < r ^ 2))).map
    (fun j => (j, distSq b pos i j))

/-- Nearer first. -/
noncomputable def nearer (x y : Nat × ℝ) : Bool := decide (x.2 ≤ y.2)

/-- A reference implementation of freud's search. -/
noncomputable def refFreud : Freud := fun b pos r k =>
  ⟨(List.range pos.length).map (fun i => ((candidates b pos r i).mergeSort nearer).take k)⟩

theorem mem_candidates (b : Box) (pos : List V3) (r : ℝ) (i : Nat) (x : Nat × ℝ) :
    x ∈ candidates b pos r i ↔
      x.1 < pos.length ∧ x.1 ≠ i ∧ x.2 = distSq b pos i x.1 ∧ x.2 < r ^ 2 := by
  unfold candidates
  rw [List.mem_map]
  constructor
  · rintro ⟨j, hj, rfl⟩
    rw [List.mem_filter] at hj
    simp only [List.mem_range, decide_eq_true_eq] at hj
    exact ⟨hj.1, hj.2.1, rfl, hj.2.2⟩
  · rintro ⟨h1, h2, h3, h4⟩
    refine ⟨x.1, ?_, by rw [← h3]⟩
    rw [List.mem_filter]
    simp only [List.mem_range, decide_eq_true_eq]
    exact ⟨h1, h2, by rw [← h3]; exact h4⟩

theorem nodup_candidates (b : Box) (pos : List V3) (r : ℝ) (i : Nat) :
    ((candidates b pos r i).map Prod.fst).Nodup := by
  unfold candidates
  rw [List.map_map]
  have : (Prod.fst ∘ fun j => (j, distSq b pos i j)) = (id : Nat → Nat) := rfl
  rw [this, List.map_id]
  exact List.nodup_range.filter _

theorem refFreud_correct : Freud.Correct refFreud := by
  intro b pos r k
  refine ⟨by simp [refFreud], ?_⟩
  intro i row hrow
  simp only [refFreud, List.getElem?_map, Option.map_eq_some_iff] at hrow
  obtain ⟨i', hi', rfl⟩ := hrow
  have : i' = i := by
    rw [List.getElem?_eq_some_iff] at hi'
    obtain ⟨_, h⟩ := hi'
    simpa using h.symm
  subst this
  set c := candidates b pos r i' with hc
  have hperm : (c.mergeSort nearer).Perm c := List.mergeSort_perm c nearer
  have hsort : (c.mergeSort nearer).Pairwise (fun x y => nearer x y = true) :=
    List.pairwise_mergeSort
      (fun x y z h1 h2 => by
        simp only [nearer, decide_eq_true_eq] at *
        exact h1.trans h2)
      (fun x y => by
        simp only [nearer, Bool.or_eq_true, decide_eq_true_eq]
        exact le_total _ _) c
  have hnd : ((c.mergeSort nearer).map Prod.fst).Nodup :=
    (hperm.map Prod.fst).nodup_iff.2 (nodup_candidates b pos r i')
  refine ⟨by simp, ?_, ?_, ?_⟩
  · rw [List.map_take]
    exact hnd.sublist (List.take_sublist _ _)
  · intro x hx
    exact (mem_candidates b pos r i' x).1 (hperm.mem_iff.1 (List.mem_of_mem_take hx))
  · intro j hj hji hd hnot
    have hmem : (j, distSq b pos i' j) ∈ c.mergeSort nearer :=
      hperm.mem_iff.2 ((mem_candidates b pos r i' _).2 ⟨hj, hji, rfl, hd⟩)
    have hdrop : (j, distSq b pos i' j) ∈ (c.mergeSort nearer).drop k := by
      rw [← List.take_append_drop k (c.mergeSort nearer), List.mem_append] at hmem
      rcases hmem with h | h
      · exact absurd (List.mem_map_of_mem h) hnot
      · exact h
    constructor
    · rw [List.length_take]
      have := List.length_pos_of_mem hdrop
      rw [List.length_drop] at this
      omega
    · intro x hx
      rw [← List.take_append_drop k (c.mergeSort nearer), List.pairwise_append] at hsort
      have := hsort.2.2 x hx _ hdrop
      simpa [nearer] using this

theorem mem_within (b : Box) (pos : List V3) (r : ℝ) (i j : Nat) :
    j ∈ within b pos r i ↔ j < pos.length ∧ j ≠ i ∧ distSq b pos i j < r ^ 2 := by
  simp [within]

/-- Number of neighbours listed. -/
theorem IsNearest.length_eq {b : Box} {pos : List V3} {r : ℝ} {k i : Nat} {row : List (Nat × ℝ)}
    (h : IsNearest b pos r k i row) : row.length = min (within b pos r i).card k := by
  have hcard : (row.map Prod.fst).toFinset.card = row.length := by
    rw [List.toFinset_card_of_nodup h.nodup, List.length_map]
  have hsub : (row.map Prod.fst).toFinset ⊆ within b pos r i := by
    intro j hj
    rw [List.mem_toFinset, List.mem_map] at hj
    obtain ⟨x, hx, rfl⟩ := hj
    obtain ⟨h1, h2, h3, h4⟩ := h.sound x hx
    exact (mem_within b pos r i _).2 ⟨h1, h2, by rw [← h3]; exact h4⟩
  have hle := Finset.card_le_card hsub
  by_cases heq : within b pos r i ⊆ (row.map Prod.fst).toFinset
  · have := Finset.card_le_card heq
    have hk := h.len
    omega
  · rw [Finset.subset_iff] at heq
    push Not at heq
    obtain ⟨j, hj, hn⟩ := heq
    obtain ⟨h1, h2, h3⟩ := (mem_within b pos r i j).1 hj
    have := (h.complete j h1 h2 h3 (by simpa using hn)).1
    omega

end Verif.Order
