import Verif.Pipeline.ReaderProps
import Verif.Pipeline.WholeLemmas
/-!
# Vocabulary and lemmas for C165 with linear steps
-/

namespace Verif.Pipeline

open Verif.Motion Verif.Gsd Verif.Names Verif.StepSize Verif.Process Verif.Cache

variable {α : Type}

/-- The frames from the `k`-th one at a multiple of the interval on, the first being the 0-th. -/
def fromMultiple (interval : Int) : ℕ → List (GFrame α) → List (GFrame α)
  | _, [] => []
  | k, f :: fs =>
    if interval ∣ f.timestep then
      match k with
      | 0 => f :: fs
      | k + 1 => fromMultiple interval k fs
    else fromMultiple interval k fs

open Classical in
/-- The readable frames with molecules that belong to keyframe `k` when steps are linear. -/
noncomputable def linearFrames (raws : List (Raw PData)) (stepsMax : Option Int) (interval kmax : Int) (k : ℕ) :
    List (GFrame PData) :=
  if (k : Int) ≤ kmax then
    (fromMultiple interval k ((readable raws).takeWhile
      (fun f => !stepsMax.any (fun m => decide (m < f.timestep))))).filter
        (fun f => decide (f.data.position ≠ []))
  else []

theorem fromMultiple_cases (interval : Int) (k : ℕ) (fs : List (GFrame α)) :
    (fromMultiple interval k fs = [] ∧
      (fs.filter (fun g => decide (interval ∣ g.timestep))).length ≤ k) ∨
    ∃ pre f post, fs = pre ++ f :: post ∧ fromMultiple interval k fs = f :: post ∧ interval ∣ f.timestep ∧
      (pre.filter (fun g => decide (interval ∣ g.timestep))).length = k := by
  induction fs generalizing k with
  | nil => exact Or.inl ⟨by cases k <;> rfl, by simp⟩
  | cons f fs ih =>
    by_cases hd : interval ∣ f.timestep
    · cases k with
      | zero => exact Or.inr ⟨[], f, fs, rfl, by simp [fromMultiple, hd], hd, rfl⟩
      | succ k =>
        rcases ih k with ⟨h1, h2⟩ | ⟨pre, g, post, h1, h2, h3, h4⟩
        · refine Or.inl ⟨by simp [fromMultiple, hd, h1], ?_⟩
          rw [List.filter_cons, if_pos (by simpa using hd)]
          simpa using h2
        · refine Or.inr ⟨f :: pre, g, post, by rw [h1]; rfl, by simp [fromMultiple, hd, h2], h3, ?_⟩
          rw [List.filter_cons, if_pos (by simpa using hd), List.length_cons, h4]
    · rcases ih k with ⟨h1, h2⟩ | ⟨pre, g, post, h1, h2, h3, h4⟩
      · refine Or.inl ⟨by cases k <;> simp [fromMultiple, hd, h1], ?_⟩
        rw [List.filter_cons, if_neg (by simpa using hd)]
        exact h2
      · refine Or.inr ⟨f :: pre, g, post, by rw [h1]; rfl, by cases k <;> simp [fromMultiple, hd, h2], h3, ?_⟩
        rw [List.filter_cons, if_neg (by simpa using hd), h4]

theorem frames_none {ν : Type} (a : Args) (vars : Except PyErr ν) (k : ℕ)
    (pairs : List (List ℕ × GFrame PData)) (h : ∀ q ∈ pairs, k ∉ q.1) :
    framesOf k (visitsOf (env a vars) pairs) = [] := by
  unfold framesOf
  rw [List.filterMap_eq_nil_iff]
  intro w hw
  simp only [visitsOf, List.mem_flatMap] at hw
  obtain ⟨q, hq, hw⟩ := hw
  split at hw
  · simp at hw
  · obtain ⟨j, hj, rfl⟩ := List.mem_map.1 hw
    rw [if_neg (by rintro rfl; exact h q hq hj)]

theorem linear_framesOf {ν : Type} (a : Args) (vars : Except PyErr ν) (raws : List (Raw PData))
    (stepsMax : Option Int) (interval kmax : Int) (hc : OnlyCorrupt raws) (hi : 1 ≤ interval) (hk : 0 ≤ kmax)
    (k : ℕ) :
    framesOf k (visitsOf (env a vars) (readGsd raws stepsMax none interval kmax).1) =
      linearFrames raws stepsMax interval kmax k := by
  obtain ⟨e1, e2⟩ := C13_linear_reader raws stepsMax interval kmax hc hi hk
  unfold linearFrames
  split
  · rename_i hle
    rcases fromMultiple_cases interval k ((readable raws).takeWhile
      (fun f => !stepsMax.any (fun m => decide (m < f.timestep)))) with ⟨h1, h2⟩ | ⟨pre, f, post, h1, h2, h3, h4⟩
    · rw [h1, List.filter_nil]
      apply frames_none
      intro q hq hmem
      obtain ⟨j, hj, rfl⟩ := List.mem_iff_getElem.1 hq
      obtain ⟨c, g1, g2⟩ := e2 j _ _ (List.getElem?_eq_getElem hj)
      have hmem' := List.mem_range.1 (g1 ▸ hmem)
      have hp := List.takeWhile_prefix (l := readable raws)
        (fun f : GFrame PData => !stepsMax.any (fun m => decide (m < f.timestep)))
      rw [← e1] at hp h2
      obtain ⟨r, hr⟩ := hp
      rw [← hr, List.take_append_of_le_length (by simp; omega)] at g2
      have h3 := ((List.take_sublist (j + 1) (List.map Prod.snd
        (readGsd raws stepsMax none interval kmax).1)).filter
          (fun g => decide (interval ∣ g.timestep))).length_le
      omega
    · rw [h2]
      exact C96_linear_frames a vars raws stepsMax interval kmax hc hi k hle pre post f h1 h3 h4
  · rename_i hlt
    apply frames_none
    intro q hq hmem
    obtain ⟨j, hj, rfl⟩ := List.mem_iff_getElem.1 hq
    obtain ⟨c, g1, g2⟩ := e2 j _ _ (List.getElem?_eq_getElem hj)
    have hmem' := List.mem_range.1 (g1 ▸ hmem)
    omega

theorem fromMultiple_sublist (interval : Int) (k : ℕ) (fs : List (GFrame α)) :
    (fromMultiple interval k fs).Sublist fs := by
  rcases fromMultiple_cases interval k fs with ⟨h1, -⟩ | ⟨pre, f, post, h1, h2, -⟩
  · rw [h1]; exact List.nil_sublist _
  · rw [h2, h1]; exact List.sublist_append_right _ _

theorem linearFrames_sublist (raws : List (Raw PData)) (stepsMax : Option Int) (interval kmax : Int) (k : ℕ) :
    (linearFrames raws stepsMax interval kmax k).Sublist (readable raws) := by
  unfold linearFrames
  split
  · exact List.filter_sublist.trans ((fromMultiple_sublist _ _ _).trans (List.takeWhile_sublist _))
  · exact List.nil_sublist _

end Verif.Pipeline
