import Verif.Process.CrashLemmas
/-!
# Property C107: what a run that ends in an exception of the reader leaves in the output file
-/

namespace Verif.Process

open Verif.Cache

variable {ι Φ D R ρ σ ν : Type} [DecidableEq ι]

/-- **C107**, for any reader.  Let `L` be the rows that a run gives when the reader ends in the usual
way.  If the reader raises `e` instead, after the same frames, `process_file` raises `e` and the table of
dynamics has only the rows of full caches: none of up to 8192 rows, otherwise the first
`8192 * ((|L| - 1) / 8192)` of them.  There is no new table of molecular relaxations. -/
theorem C107_reader_raises (E : Env Φ D R ρ σ ν) (pairs : List (List ι × Φ)) (e : PyErr)
    (file file0 : File (Rec ι ρ σ ν)) (out : Option (List (Rec ι ρ σ ν)))
    (h : processFile E (some (pairs, none)) true [] = (file0, .ok out)) :
    ∃ file', processFile E (some (pairs, some e)) true file = (file', .error e) ∧
      ((rows file0 "dynamics").length ≤ 8192 → file' = file) ∧
      (8192 < (rows file0 "dynamics").length → rows file' "dynamics" =
        (rows file0 "dynamics").take (8192 * (((rows file0 "dynamics").length - 1) / 8192))) ∧
      ∀ g, g ≠ "dynamics" → Dict.get? file' g = Dict.get? file g := by
  obtain ⟨-, -, herr, v, -, -, hrows, -, -⟩ := processFile_ok E pairs none [] file0 out h
  have hL : rows file0 "dynamics" = (coreRun E (visitsOf E pairs) []).1.2 := by
    rw [hrows]
    split
    · rename_i h0; rw [h0]; rfl
    · rfl
  obtain ⟨c, f1, h1, h2⟩ := loop_file E pairs file
  have hrun : processFile E (some (pairs, some e)) true file = (f1, .error e) := by
    simp only [processFile]
    rw [h1, herr]
  refine ⟨f1, hrun, ?_⟩
  rw [hL]
  by_cases hnil : (coreRun E (visitsOf E pairs) []).1.2 = []
  · rw [hnil] at h2 ⊢
    simp only [List.map_nil, runOps, Prod.mk.injEq, and_true] at h2
    obtain ⟨-, rfl⟩ := h2
    exact ⟨fun _ => rfl, by simp, fun _ _ => rfl⟩
  · obtain ⟨f', g1, g2, g3, g4⟩ := appends_full file _ hnil
    rw [h2] at g1
    simp only [Prod.mk.injEq, and_true] at g1
    obtain ⟨-, rfl⟩ := g1
    exact ⟨g2, g3, g4⟩

/-- Trackers that give a row for every frame, and two frames of two keyframes. -/
example : ∃ file0, processFile (⟨fun _ => 1, fun n => .ok n, fun _ => .ok (), none, fun d n => (d, .ok (n - d)),
      fun _ _ => ((), none), fun _ => [()], .ok ()⟩ : Env Int Int Unit Int Unit Unit)
      (some ([([0], 5), ([0, 1], 7)], none)) true ([] : File (Rec Nat Int Unit Unit)) = (file0, .ok none) ∧
    rows file0 "dynamics" = [.dyn 0 0 (), .dyn 0 2 (), .dyn 1 0 ()] := ⟨_, rfl, rfl⟩

end Verif.Process
