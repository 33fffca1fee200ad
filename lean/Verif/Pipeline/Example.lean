import Verif.Pipeline.RunLemmas
/-!
# A run to try the hypotheses on

Ten molecules in a tilted cell, one of which walks out of the cell while turning, stored with
positions wrapped back and alternating signs of the quaternion.
-/

namespace Verif.Pipeline

open Verif.Motion Verif.Dynamics Verif.Relax Verif.Gsd Verif.Process Verif.Cache

/-- The cell. -/
noncomputable def tC : Cell := ⟨4, 4, 1, 1 / 2, 0, 0, true⟩
/-- True positions. -/
def tU : ℕ → Fin 10 → V3 := fun i m => if m = 0 then (i, 0, 0) else 0
/-- Stored positions. -/
def tS : ℕ → Fin 10 → V3 := fun i m =>
  if m = 0 then if i ≤ 1 then (i, 0, 0) else (i - 4, 0, 0) else 0
/-- Angles. -/
def tθ : ℕ → Fin 10 → ℝ := fun i m => if m = 0 then 3 * i else 0
/-- Signs. -/
def tσ : ℕ → Fin 10 → ℝ := fun i _ => if i % 2 = 0 then 1 else -1
/-- Stored orientations. -/
noncomputable def tO : ℕ → Option (Fin 10 → Quat) := fun i => some (fun m => tσ i m • zRot (tθ i m))
/-- Times. -/
def tT : ℕ → ℤ := fun i => 5 + 3 * i

theorem t_follows (n : ℕ) : Follows tC n tU tS tθ tσ tO := by
  have hpi := Real.pi_gt_three
  refine ⟨by simp [tC, Cell.Proper], ?_, ?_, ?_, fun i => rfl, ?_⟩
  · intro i _ m
    by_cases hm : m = 0
    · by_cases h : i ≤ 1
      · exact ⟨0, 0, 0, by simp [tC, tU, tS, hm, Cell.flat, Cell.comb, h]⟩
      · exact ⟨-1, 0, 0, by simp [tC, tU, tS, hm, Cell.flat, Cell.comb, h]⟩
    · exact ⟨0, 0, 0, by simp [tC, tU, tS, hm, Cell.flat, Cell.comb]⟩
  · intro i _ m
    by_cases hm : m = 0
    · refine ⟨1 / 4, 0, 0, by rw [abs_lt]; constructor <;> norm_num, by simp, by simp, ?_⟩
      simp [tC, tU, hm, Cell.flat, Cell.comb]
    · exact ⟨0, 0, 0, by simp, by simp, by simp, by simp [tC, tU, hm, Cell.flat, Cell.comb]⟩
  · intro i m
    by_cases h : i % 2 = 0 <;> simp [tσ, h]
  · intro i _ m
    by_cases hm : m = 0
    · simp only [tθ, hm, if_true]
      push_cast
      rw [show (3 * ((i : ℝ) + 1) - 3 * i) = 3 by ring]
      simpa using hpi
    · simp only [tθ, hm, if_false, sub_self, abs_zero]
      linarith

/-- Arguments with a given wave number. -/
noncomputable def tA : Args :=
  ⟨Classical.choose exists_sorts, fun _ _ => .error .valueError, exMol, some 2, true, none⟩

/-- The pairs a reader yields: six frames with index 0, the later ones also with index 1. -/
noncomputable def tPairs : List (List ℕ × GFrame PData) :=
  (List.range 6).map (fun i => (if i < 2 then [0] else [0, 1], gf tT (fun _ => tC.array) tS tO i))

theorem t_frames : framesOf 0 (visitsOf (env tA (.ok ())) tPairs) =
    gframes tT (fun _ => tC.array) tS tO 5 := by
  have h : ∀ i, (env tA (.ok ())).numPos (gf tT (fun _ => tC.array) tS tO i) ≠ 0 := by
    intro i; simp [env, gf]
  simp [tPairs, visitsOf, framesOf, gframes, List.range_succ, h]

theorem t_usable (i : ℕ) : Usable tA (gf tT (fun _ => tC.array) tS tO i) := by
  refine ⟨by simp [gf], by simp [gf, tO], tC.box, 2, ?_, rfl, by norm_num⟩
  have : (decide (tA.mol.dimensions = 2)) = tC.is2D := rfl
  rw [this]
  exact createFreudBox_cell tC

theorem t_returns : ∃ file', processFile (env tA (.ok ())) (some (tPairs, none)) true [] =
    (file', .ok none) := by
  have hk := env_keeps tA () (by simp [tA, exMol]) (by simp [tA]) (by simp [tA])
  have hvis : ∀ v ∈ visitsOf (env tA (.ok ())) tPairs, Usable tA v.2 := by
    intro v hv
    simp only [visitsOf, List.mem_flatMap] at hv
    obtain ⟨p, hp, hv⟩ := hv
    split at hv
    · simp at hv
    · obtain ⟨k, _, rfl⟩ := List.mem_map.1 hv
      simp only [tPairs, List.mem_map] at hp
      obtain ⟨i, _, rfl⟩ := hp
      exact t_usable i
  have hne : visitsOf (env tA (.ok ())) tPairs ≠ [] := by
    intro h0
    have := t_frames
    rw [h0] at this
    simp [framesOf, gframes] at this
  obtain ⟨h1, h2⟩ := keeps_core _ hk _ [] (by simp [Dict.get?]) hvis
  exact processFile_returns _ _ _ () h1 rfl (h2 (Or.inr hne))

end Verif.Pipeline
