import Verif.Pipeline.LammpsProps
/-!
# Property C107: how many rows are lost to damage
-/

namespace Verif.Pipeline

open Verif.Motion Verif.Dynamics Verif.Lammps Verif.Process Verif.Cache

variable {ν : Type}

/-- **C107, exactly.**  With a new output file, the rows of the frames before the damage are all in it iff there are
none; otherwise at least one row, the last, is lost, and at most 8192. -/
theorem C107_exactly (a : Args) (vars : Except PyErr ν) (float : List Char → Option ℝ)
    (hfloat : ∀ w, float (w ++ ['\n']) = float w) (junk : ℝ) {n : ℕ} {f : ℕ → FrameText ℝ}
    (hv : ∀ i ≤ n, (f i).Valid float) (stepsMax : Option Int)
    (hin : ∀ i ≤ n, ∀ m, stepsMax = some m → (f i).timestep ≤ m) {tail l : List Char}
    (hl : FirstLine tail l) (hl0 : l ≠ []) (hl1 : l ≠ "ITEM: TIMESTEP\n".toList)
    {file0 : File (Rec ℕ (Dict Quantity Val) (Dict String ℤ) ν)}
    {out : Option (List (Rec ℕ (Dict Quantity Val) (Dict String ℤ) ν))}
    (h : processLammps a vars float junk (runText f n) stepsMax true [] = (file0, .ok out)) :
    ∃ file', processLammps a vars float junk (runText f n ++ tail) stepsMax true [] =
        (file', .error .runtimeError) ∧
      rows file' "dynamics" <+: rows file0 "dynamics" ∧
      (rows file' "dynamics" = rows file0 "dynamics" ↔ rows file0 "dynamics" = []) ∧
      (rows file0 "dynamics").length ≤ (rows file' "dynamics").length + 8192 := by
  obtain ⟨file', h1, h2, h3, -⟩ := C107_damage_partial a vars float hfloat junk hv stepsMax hin hl hl0 hl1 h []
  have hnil : rows ([] : File (Rec ℕ (Dict Quantity Val) (Dict String ℤ) ν)) "dynamics" = [] := rfl
  refine ⟨file', h1, ?_⟩
  rcases Nat.lt_or_ge 8192 (rows file0 "dynamics").length with hlt | hge
  · rw [h3 hlt]
    refine ⟨List.take_prefix _ _, ⟨?_, ?_⟩, ?_⟩
    · intro he
      have := congrArg List.length he
      rw [List.length_take] at this
      omega
    · intro he
      rw [he] at hlt
      simp at hlt
    · rw [List.length_take]
      omega
  · rw [h2 hge, hnil]
    exact ⟨List.nil_prefix, eq_comm, by simpa using hge⟩

/-- The six frames of `C107_damage_refuted`, with rows, and garbage behind them. -/
example : (∃ file0, processLammps tA (.ok ()) intFloat 0 (runText lText 5) none true [] = (file0, .ok none) ∧
      rows file0 "dynamics" ≠ []) ∧ ∀ i ≤ 5, (lText i).Valid intFloat :=
  ⟨l_rows, fun i _ => lText_valid i⟩

end Verif.Pipeline
