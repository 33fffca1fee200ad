import Verif.Cli.Props
/-!
# Property C72: exactly which command lines are accepted
-/

namespace Verif.Cli

variable {K : Type}

/-- **C72, exactly.**  The options reach `process_file` iff neither `--molecule` nor `--output` is among them; otherwise
there is a TypeError. -/
theorem C72_exactly (g : Globals K) (c : Command) :
    ((∃ args, compDynamics g c = .ok args) ↔ g.molecule = none ∧ g.output = none) ∧
    (¬ (g.molecule = none ∧ g.output = none) → compDynamics g c = .error .typeError) := by
  have hbad : ¬ (g.molecule = none ∧ g.output = none) → compDynamics g c = .error .typeError := by
    intro h
    cases hm : g.molecule with
    | some m => exact C72_molecule_refuted g c m hm
    | none =>
      cases ho : g.output with
      | some o => exact C72_output_refuted g c o ho
      | none => exact absurd ⟨hm, ho⟩ h
  refine ⟨⟨?_, ?_⟩, hbad⟩
  · rintro ⟨args, h⟩
    refine Classical.byContradiction fun hne => ?_
    rw [hbad hne] at h
    cases h
  · rintro ⟨hm, ho⟩
    obtain ⟨args, h, -⟩ := C72_arguments_partial g c hm ho
    exact ⟨args, h⟩

/-- A command line with `--output`, and one without. -/
example : ∃ (g g' : Globals Nat) (c : Command), ¬ (g.molecule = none ∧ g.output = none) ∧
    g'.molecule = none ∧ g'.output = none ∧ c.infile = ['a'] :=
  ⟨{ output := some ['o'], waveNumber := 3 }, { waveNumber := 3 }, { infile := ['a'], outfile := ['b'] },
    by simp, rfl, rfl, rfl⟩

end Verif.Cli
