import Verif.Dynamics.CloseLemmas
/-!
# C166: working out the particles of the molecules leaves the orientations alone
-/

namespace Verif.Dynamics

open Verif.Motion Quaternion

/-- **C166, what is proved.**  The array of orientations handed to `molecule2particles` is after the
call what it was before exactly when it has no rows or some component of some orientation is further
from zero than 1e-8.  The property asks for this of all arrays, `C166_refuted`. -/
theorem C166_kept_partial (position : List V3) (o : List Quat) (v : List V3) :
    (molecule2particlesRun position (.array o) v).2 = .array o ↔
      o = [] ∨ ∃ q ∈ o, 1 / 10 ^ 8 < |q.re| ∨ 1 / 10 ^ 8 < |q.imI| ∨ 1 / 10 ^ 8 < |q.imJ| ∨
        1 / 10 ^ 8 < |q.imK| := by
  by_cases hc : allCloseZero o
  · rw [run_close _ hc]
    constructor
    · intro h
      left
      by_contra hne
      have h' : setFirst o = o := by
        simpa using h
      apply not_close_setFirst hne
      rw [h']
      exact hc
    · rintro (rfl | ⟨q, hq, h⟩)
      · rfl
      · obtain ⟨a1, a2, a3, a4⟩ := hc q hq
        rw [closeZero_iff] at a1 a2 a3 a4
        rcases h with h | h | h | h <;> linarith
  · rw [run_array _ hc]
    refine ⟨fun _ => Or.inr ?_, fun _ => rfl⟩
    unfold allCloseZero at hc
    simp only [not_forall] at hc
    obtain ⟨q, hq, h⟩ := hc
    refine ⟨q, hq, ?_⟩
    simp only [closeZero_iff] at h
    by_contra hn
    simp only [not_or, not_lt] at hn
    exact h hn

/-- Unit quaternions are never taken for zeros: the array is kept, and the value is that of
`molecule2particles` without tolerances.  The orientations `compute_struct_relax` hands over are of
this kind (dynamics/dynamics.py:312-323). -/
theorem C166_unit (position : List V3) (o : List Quat) (h : ∀ q ∈ o, normSq q = 1) (v : List V3) :
    molecule2particlesRun position (.array o) v = (molecule2particles position o v, .array o) := by
  rcases o with _ | ⟨q, t⟩
  · rw [run_close _ (by simp [allCloseZero])]
    unfold molecule2particles
    rw [rotateAllTol_unit (by simp [setFirst])]
    simp [setFirst]
    cases rotateAll [] v <;> rfl
  · have hc : ¬ allCloseZero (q :: t) := fun hc =>
      unit_not_close (h q (by simp)) (hc q (by simp))
    rw [run_array _ hc, rotateAllTol_unit h]
    unfold molecule2particles
    rw [if_neg]
    · simp only
      cases rotateAll (q :: t) v <;> rfl
    intro hz
    have := h q (by simp)
    rw [hz q (by simp)] at this
    simp at this

/-- Calling it again with the array it has written to gives the same, and writes nothing new. -/
theorem C166_again (position : List V3) (o : OrientArg) (v : List V3) :
    molecule2particlesRun position (molecule2particlesRun position o v).2 v =
      molecule2particlesRun position o v := by
  rcases o with _ | o
  · rfl
  · by_cases hc : allCloseZero o
    · rw [run_close _ hc]
      rcases o with _ | ⟨q, t⟩
      · rw [show setFirst [] = [] from rfl, run_close _ hc]
        rfl
      · rw [run_array _ (not_close_setFirst (by simp))]
    · rw [run_array _ hc]
      simp only
      rw [run_array _ hc]

example (v : List V3) : molecule2particlesRun [] (molecule2particlesRun [] (.array [0]) v).2 v =
    molecule2particlesRun [] (.array [0]) v := C166_again [] (.array [0]) v

/-- A tuple of orientations is refused, whatever it holds. -/
theorem C166_tuple (position v : List V3) :
    molecule2particlesRun position .tuple v = (.error .valueError, .tuple) := rfl

/-- Orientations within 1e-8 of zero stand for molecules that are not rotated.  For `N` molecules of
`K` particles nothing is raised, and each particle ends up within 5e-8 of the size `M` of the
molecule of where it would be without rotation: the vector is that of `n.divNat`, the position that
of row `n / K` (C39 is about how these go together). -/
theorem C166_near {K N : ℕ} (hK : 0 < K) (pos : Fin N → V3) (q : Fin N → Quat)
    (hq : ∀ m, |(q m).re| ≤ 1 / 10 ^ 8 ∧ |(q m).imI| ≤ 1 / 10 ^ 8 ∧ |(q m).imJ| ≤ 1 / 10 ^ 8 ∧
      |(q m).imK| ≤ 1 / 10 ^ 8)
    (v : Fin K → V3) (M : ℝ) (hM : ∀ p, |(v p).1| ≤ M ∧ |(v p).2.1| ≤ M ∧ |(v p).2.2| ≤ M) :
    ∃ f : Fin (K * N) → V3,
      (molecule2particlesRun (List.ofFn pos) (.array (List.ofFn q)) (List.ofFn v)).1 =
        .ok (List.ofFn f) ∧
      ∀ n : Fin (K * N),
        |(f n).1 - ((v n.divNat).1 + (pos (repeatIx n)).1)| ≤ 5 / 10 ^ 8 * M ∧
        |(f n).2.1 - ((v n.divNat).2.1 + (pos (repeatIx n)).2.1)| ≤ 5 / 10 ^ 8 * M ∧
        |(f n).2.2 - ((v n.divNat).2.2 + (pos (repeatIx n)).2.2)| ≤ 5 / 10 ^ 8 * M := by
  have hc : allCloseZero (List.ofFn q) := by
    intro a ha
    rw [List.mem_ofFn] at ha
    obtain ⟨i, rfl⟩ := ha
    simp only [closeZero_iff]
    exact hq i
  have hs : setFirst (List.ofFn q) = List.ofFn (fun m => withFirst (q m)) := by
    unfold setFirst
    rw [map_ofFn']
  have hn : ∀ m, closeZero (q m).imI ∧ closeZero (q m).imJ ∧ closeZero (q m).imK := by
    intro m
    simp only [closeZero_iff]
    exact (hq m).2
  refine ⟨fun n => rotate (withFirst (q n.modNat)) (v n.divNat) + pos (repeatIx n), ?_, ?_⟩
  · rw [run_close _ hc, hs, rotateAllTol_ofFn hK _ (fun m => near_norm (hn m))]
    simp only [List.length_ofFn]
    rw [repeat_ofFn, bcast_ofFn]
  · intro n
    obtain ⟨m1, m2, m3⟩ := hM n.divNat
    have := rotate_near (hn n.modNat) m1 m2 m3
    simp only [Prod.fst_add, Prod.snd_add]
    simp only [add_sub_add_right_eq_sub]
    exact this

/-- An array of zeros is written to. -/
theorem C166_refuted :
    ¬ ∀ (position : List V3) (o : List Quat) (v : List V3),
      (molecule2particlesRun position (.array o) v).2 = .array o := by
  intro h
  have := (C166_kept_partial [] [0] []).1 (h [] [0] [])
  simp at this
  norm_num at this

/-- An orientation that has a component of 1 is kept. -/
example : (molecule2particlesRun [((3 : ℝ), (4 : ℝ), (0 : ℝ))] (.array [1]) [((1 : ℝ), (0 : ℝ), (0 : ℝ))]).2 =
    .array [1] := by
  rw [C166_kept_partial]
  refine Or.inr ⟨1, by simp, Or.inl ?_⟩
  norm_num

/-- Two molecules of one particle with orientations of zeros: unit vectors end up within 5e-8 of the
position they would have without rotation. -/
example : ∃ f : Fin (1 * 2) → V3,
    (molecule2particlesRun (List.ofFn ![((3 : ℝ), (4 : ℝ), (0 : ℝ)), (5, 6, 0)])
      (.array (List.ofFn (fun _ : Fin 2 => (0 : Quat)))) (List.ofFn ![((1 : ℝ), (0 : ℝ), (0 : ℝ))])).1 =
      .ok (List.ofFn f) ∧ |(f 1).1 - (1 + 5)| ≤ 5 / 10 ^ 8 * 1 := by
  obtain ⟨f, h1, h2⟩ := C166_near (K := 1) (N := 2) (by norm_num)
    ![((3 : ℝ), (4 : ℝ), (0 : ℝ)), (5, 6, 0)] (fun _ => 0) (fun m => by simp)
    ![((1 : ℝ), (0 : ℝ), (0 : ℝ))] 1 (fun p => by
      fin_cases p
      simp)
  refine ⟨f, h1, ?_⟩
  exact (h2 1).1

/-- A unit quaternion and one molecule, both ways of `C166_unit`. -/
example : (molecule2particlesRun [((3 : ℝ), (4 : ℝ), (0 : ℝ))] (.array [qz 1]) [((1 : ℝ), (0 : ℝ), (0 : ℝ))]).2 =
    .array [qz 1] := by
  rw [C166_unit]
  intro q hq
  rw [List.mem_singleton.1 hq, normSq_def']
  simp only [qz]
  have := Real.cos_sq_add_sin_sq (1 / 2 : ℝ)
  linarith

end Verif.Dynamics
