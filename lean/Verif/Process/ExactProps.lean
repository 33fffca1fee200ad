import Verif.Process.Props
/-!
# Exactly when the output of `process_file` is fresh and complete: C24, C82
-/

namespace Verif.Process

open Verif.Cache

variable {ι Φ D R ρ σ ν : Type} [DecidableEq ι]

/-- **C24, exactly.**  Beside a successful run with an output file, the run without one returns the
rows of that file if and only if there are between 1 and 8192 of them; otherwise it raises
AssertionError. -/
theorem C24_exactly (E : Env Φ D R ρ σ ν) (pairs : List (List ι × Φ)) (ending : Option PyErr)
    (file file' : File (Rec ι ρ σ ν)) (o : Option (List (Rec ι ρ σ ν)))
    (h : processFile E (some (pairs, ending)) true file = (file', .ok o)) :
    ((processFile E (some (pairs, ending)) false file).2 = .ok (some (rows file' "dynamics")) ↔
      1 ≤ (expected E [] (visitsOf E pairs)).length ∧
        (expected E [] (visitsOf E pairs)).length ≤ 8192) ∧
    (¬ (1 ≤ (expected E [] (visitsOf E pairs)).length ∧
        (expected E [] (visitsOf E pairs)).length ≤ 8192) →
      processFile E (some (pairs, ending)) false file = (file, .error .assertionError)) := by
  have hbad : ¬ (1 ≤ (expected E [] (visitsOf E pairs)).length ∧
        (expected E [] (visitsOf E pairs)).length ≤ 8192) →
      processFile E (some (pairs, ending)) false file = (file, .error .assertionError) := by
    intro hn
    by_cases hbig : 8192 < (expected E [] (visitsOf E pairs)).length
    · exact C24_memory_overflow E pairs ending file file' o h hbig
    · have h0 : (expected E [] (visitsOf E pairs)).length = 0 := by omega
      obtain ⟨rfl, rfl, h1, _⟩ := processFile_ok E pairs ending file file' o h
      have hnil := (expected_nil_iff E _ h1).1 (List.length_eq_zero_iff.1 h0)
      simp only [processFile]
      rw [(loop_memory E pairs file).1 (by rw [hnil]; exact Nat.zero_le _), h1]
      simp only [Bool.false_eq_true, if_false, finishMemory, hnil, List.length_nil, gt_iff_lt,
        lt_irrefl]
  refine ⟨⟨fun hm => ?_, fun hr => ?_⟩, hbad⟩
  · by_contra hn
    rw [hbad hn] at hm
    cases hm
  · rw [(C24_memory_equals_file_partial E pairs ending file).2 file' o h
      (by intro h0; rw [h0] at hr; simp at hr) hr.2]

/-- A run with no frame that gives a row: the table is empty, and the run without a file raises. -/
example (file' : File (Rec Nat Unit Unit Unit))
    (h : processFile failing (some ([([0], ())], none)) true [] = (file', .ok none)) :
    processFile failing (some ([([0], ())], none)) false [] = (([] : File _), .error .assertionError) :=
  (C24_exactly failing [([0], ())] none [] file' none h).2 (by decide)

/-- **C82, exactly.**  After a successful run the table of dynamics holds the rows of this run, and
nothing else, if and only if the file had no rows before or this run computed at least one.  In the
remaining case the table is the one of the earlier run. -/
theorem C82_exactly (E : Env Φ D R ρ σ ν) (pairs : List (List ι × Φ)) (ending : Option PyErr)
    (file file' : File (Rec ι ρ σ ν)) (o : Option (List (Rec ι ρ σ ν)))
    (h : processFile E (some (pairs, ending)) true file = (file', .ok o)) :
    (((rows file' "dynamics").filterMap dynPair = expected E [] (visitsOf E pairs) ∧
      (rows file' "dynamics").length = (expected E [] (visitsOf E pairs)).length) ↔
      rows file "dynamics" = [] ∨ expected E [] (visitsOf E pairs) ≠ []) ∧
    (expected E [] (visitsOf E pairs) = [] → rows file' "dynamics" = rows file "dynamics") := by
  have hstale : expected E [] (visitsOf E pairs) = [] →
      rows file' "dynamics" = rows file "dynamics" := by
    intro h0
    obtain ⟨_, _, h1, _, _, _, ht, _⟩ := processFile_ok E pairs ending file file' o h
    rw [ht, if_pos ((expected_nil_iff E _ h1).1 h0)]
  refine ⟨⟨fun hr => ?_, fun hr => ?_⟩, hstale⟩
  · by_cases h0 : expected E [] (visitsOf E pairs) = []
    · left
      have hl := hr.2
      rw [hstale h0, h0] at hl
      exact List.length_eq_zero_iff.1 hl
    · exact Or.inr h0
  · have := C26_rows E pairs ending file file' o h hr
    exact ⟨this.1, this.2.1⟩

/-- The row of an earlier run stays when the only frame raises. -/
example (file' : File (Rec Nat Unit Unit Unit))
    (h : processFile failing (some ([([0], ())], none)) true [("dynamics", [.dyn 7 () ()])] =
      (file', .ok none)) : rows file' "dynamics" = [.dyn 7 () ()] :=
  (C82_exactly failing [([0], ())] none _ file' none h).2 (by decide)

end Verif.Process
