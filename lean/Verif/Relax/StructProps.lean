import Mathlib.Tactic.Linarith
import Mathlib.Tactic.Ring
import Mathlib.Tactic.NormNum
import Mathlib.Algebra.Order.BigOperators.Group.Finset
import Verif.Relax.Props
import Verif.Relax.StructSpec
/-!
# Properties of the relaxations averaged over particles, C103
-/

namespace Verif.Relax

variable {K : Type} [Field K] [LinearOrder K]

/-- A run of the averaged relaxations is one of the relaxations of particles. -/
theorem Struct.run_eq (r : Struct K) (hist : List (Int × List (Fl K))) :
    r.run hist = match r.base.run hist with
      | .ok b => .ok ⟨b, r.particles⟩
      | .error e => .error e := by
  induction hist generalizing r with
  | nil => rfl
  | cons q hist ih =>
    simp only [Struct.run, Struct.add, First.run]
    cases r.base.add q.1 q.2 with
    | error e => rfl
    | ok b => exact ih _

theorem sum_take_drop (l : List ℤ) (a p : ℕ) (h : a + p ≤ l.length) :
    ((((l.drop a).take p).map (fun (s : ℤ) => (s : ℚ))).sum) =
      ∑ j ∈ Finset.range p, ((l.getD (a + j) 0 : ℤ) : ℚ) := by
  induction p with
  | zero => simp
  | succ p ih =>
    rw [Finset.sum_range_succ, ← ih (by omega), List.take_add_one, List.map_append, List.sum_append]
    congr 1
    simp [List.getElem?_drop, List.getD_eq_getElem?_getD, List.getElem?_eq_getElem (show a + p < l.length by omega)]

/-! ## C103 -/

/-- The property as stated: the package lays out particles with all first particles of the molecules
first (`molecule2particles`, `orientation2positions`), and the status holds the averages for the
molecules. -/
def StructStatus (K : Type) [Field K] [LinearOrder K] : Prop :=
  ∀ (n p : ℕ) (thr : Option K) (hist : List (Int × List (Option K))), 0 < p →
    (∀ q ∈ hist, q.2.length = n * p) →
    ∃ r l, (Struct.new n thr p).run hist = .ok r ∧ r.getStatus = .ok l ∧
      ParticleAverages n p (fun m j => j * n + m) thr hist l

/-- **C103, the part that holds.**  Missing for the full statement: the layout of the package, see
`C103_layout_refuted`.  With distances molecule by molecule the status holds the averages. -/
theorem C103_averages_partial (n p : ℕ) (thr : Option K) (hist : List (Int × List (Option K)))
    (hp : 0 < p) (hlen : ∀ q ∈ hist, q.2.length = n * p) :
    ∃ r l, (Struct.new n thr p).run hist = .ok r ∧ r.getStatus = .ok l ∧
      ParticleAverages n p (fun m j => m * p + j) thr hist l := by
  obtain ⟨b, h1, h2, h3⟩ := C41_first_passage (n * p) thr .translation hist hlen
  refine ⟨⟨b, p⟩, (List.range n).map (fun m =>
    (((b.status.drop (m * p)).take p).map (fun (s : ℤ) => (s : ℚ))).sum / p), ?_, ?_, ?_, ?_⟩
  · rw [Struct.run_eq]
    simp only [Struct.new, h1]
  · have h2' : b.status.length = n * p := h2
    unfold Struct.getStatus
    rw [if_neg (by simp [h2', hp.ne'])]
    simp only [h2', Nat.mul_div_cancel _ hp]
  · simp
  · intro m hm
    have hb : ∀ j < p, m * p + j < n * p := by
      intro j hj
      calc m * p + j < m * p + p := by omega
        _ = (m + 1) * p := by ring
        _ ≤ n * p := Nat.mul_le_mul_right _ hm
    have hle : m * p + p ≤ b.status.length := by
      have h2' : b.status.length = n * p := h2
      rw [h2', show m * p + p = (m + 1) * p by ring]
      exact Nat.mul_le_mul_right _ hm
    refine ⟨fun j => b.status.getD (m * p + j) 0, ?_, ?_⟩
    · intro j hj
      obtain ⟨s, e1, e2⟩ := h3 _ (hb j hj)
      have : b.status.getD (m * p + j) 0 = s := by
        rw [List.getD_eq_getElem?_getD]
        simp only [First.getStatus] at e1
        rw [e1]; rfl
      simp only [this]
      exact e2
    · simp only [List.getElem?_map, List.getElem?_range hm, Option.map_some, sum_take_drop _ _ _ hle]

/-- Two molecules of two particles. -/
example : (((Struct.new 2 (some (1 : ℚ)) 2).run [(3, [some 2, some 0, some 0, some 0]),
      (5, [some 2, some 2, none, some 2])]).toOption.map Struct.getStatus).map (fun r => r.toOption) =
    some (some [4, (2 ^ 32 - 1 + 5) / 2]) := by
  simp [Struct.new, Struct.run, Struct.add, First.add, First.new, firstStep, fgt, maxValue, Struct.getStatus,
    Except.toOption, List.range_succ]
  norm_num

/-- **C103 is false**: two molecules of two particles, in the layout of the package; after one frame the
first particle of both has moved.  Reported are 1 for the first molecule and never for the second. -/
theorem C103_layout_refuted : ¬ StructStatus ℚ := by
  intro h
  obtain ⟨r, l, h1, h2, -, h3⟩ := h 2 2 (some 1) [(1, [some 2, some 2, some 0, some 0])] (by norm_num) (by simp)
  have hr : (Struct.new 2 (some (1 : ℚ)) 2).run [(1, [some 2, some 2, some 0, some 0])] =
      .ok ⟨⟨some 1, .translation, [1, 1, maxValue, maxValue]⟩, 2⟩ := by
    simp [Struct.new, Struct.run, Struct.add, First.add, First.new, firstStep, fgt, maxValue]
  rw [hr] at h1
  cases h1
  simp [Struct.getStatus, List.range_succ] at h2
  subst h2
  obtain ⟨s, s1, s2⟩ := h3 0 (by norm_num)
  have e0 : s 0 = 1 := by
    have := s1 0 (by norm_num)
    refine this.unique ⟨Or.inr ⟨(1, some 2), ?_, ⟨2, 1, rfl, rfl, by norm_num⟩, rfl⟩, ?_⟩
    · simp [ofMol]
    · rintro x (rfl | ⟨q, hq, -, rfl⟩)
      · norm_num
      · simp [ofMol] at hq
        simp [hq]
  have e1 : s 1 = 2 ^ 32 - 1 := by
    have := s1 1 (by norm_num)
    refine this.unique ⟨Or.inl rfl, ?_⟩
    rintro x (rfl | ⟨q, hq, ⟨a, b, ha, hb, hab⟩, rfl⟩)
    · norm_num
    · simp [ofMol] at hq
      subst hq
      simp at ha hb
      subst ha hb
      norm_num at hab
  simp [Finset.sum_range_succ, e0, e1] at s2
  norm_num at s2

omit [Field K] in
/-- A molecule with a particle which has not moved is reported with a number that is no time: it is at
least `(2**32 - 1) / p`, however soon the others have moved. -/
theorem C103_unmoved (n p : ℕ) (place : ℕ → ℕ → ℕ) (thr : Option K) (hist : List (Int × List (Option K)))
    (l : List ℚ) (h : ParticleAverages n p place thr hist l) (hpos : ∀ q ∈ hist, 0 ≤ q.1) (m j : ℕ)
    (hm : m < n) (hj : j < p) (hun : ∀ q ∈ ofMol (place m j) hist, ¬ Exceeds q.2 thr) :
    ∃ v, l[m]? = some v ∧ (2 ^ 32 - 1) / (p : ℚ) ≤ v := by
  obtain ⟨s, s1, s2⟩ := h.2 m hm
  refine ⟨_, s2, ?_⟩
  have hj' : s j = 2 ^ 32 - 1 := by
    rcases (s1 j hj).1 with e | ⟨q, hq, he, -⟩
    · exact e
    · exact absurd he (hun q hq)
  have hnn : ∀ i ∈ Finset.range p, (0 : ℚ) ≤ (s i : ℚ) := by
    intro i hi
    rcases (s1 i (Finset.mem_range.1 hi)).1 with e | ⟨q, hq, -, e⟩
    · rw [e]; norm_num
    · rw [e]
      simp only [ofMol, List.mem_map] at hq
      obtain ⟨q', hq', rfl⟩ := hq
      exact_mod_cast hpos q' hq'
  have := Finset.single_le_sum hnn (Finset.mem_range.2 hj)
  rw [hj'] at this
  have hp : (0 : ℚ) < p := by exact_mod_cast (by omega : 0 < p)
  rw [div_le_div_iff_of_pos_right hp]
  push_cast at this
  linarith

example : ∃ l, ParticleAverages 1 2 (fun m j => m * 2 + j) (some (1 : ℚ)) [(3, [some 2, some 0])] l ∧
    ∀ q ∈ ofMol 1 [((3 : ℤ), [some (2 : ℚ), some 0])], ¬ Exceeds q.2 (some (1 : ℚ)) := by
  obtain ⟨r, l, -, -, h⟩ := C103_averages_partial 1 2 (some (1 : ℚ)) [(3, [some 2, some 0])] (by norm_num) (by simp)
  refine ⟨l, h, ?_⟩
  intro q hq
  simp [ofMol] at hq
  subst hq
  rintro ⟨a, b, ha, hb, hab⟩
  simp at ha hb
  subst ha hb
  norm_num at hab

end Verif.Relax
