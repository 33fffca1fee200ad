import Verif.Viewer.NameProps
/-!
# Property C70: exactly when the open trajectory is the selected file
-/

namespace Verif.Viewer

variable (env : Env)

/-- **C70, exactly.**  After another iteration has been chosen, which stands for the file `f`, the open trajectory is
that of `f` iff `f` can be opened or was open before. -/
theorem C70_exactly (s : State) (v f : Str) (hv : v ≠ s.iValue)
    (hf : ({ s with iValue := v } : State).selectedFile = .ok f) :
    ((Event.iteration v).handle env s).1.selectedFile = .ok f ∧
    ((∃ n, ((Event.iteration v).handle env s).1.trajectory = some (f, n)) ↔
      (∃ n, env.opens f = .ok n) ∨ ∃ n, s.trajectory = some (f, n)) := by
  have hne : s.iValue ≠ v := fun e => hv e.symm
  have hh : (Event.iteration v).handle env s = updateTrajectory env { s with iValue := v } := by
    simp only [Event.handle, setIter, if_neg hne]
  rw [hh]
  constructor
  · have := updateTrajectory_keeps env { s with iValue := v }
    rw [selectedFile_congr (congrArg Prod.fst this)]
    exact hf
  · unfold updateTrajectory
    rw [hf]
    simp only
    cases ho : env.opens f with
    | error e => simp
    | ok n =>
      have := afterOpen_keeps env f n { ({ s with iValue := v } : State) with trajectory := some (f, n) }
      simp only [core, Prod.mk.injEq] at this
      constructor
      · intro _
        exact Or.inl ⟨n, rfl⟩
      · intro _
        exact ⟨n, this.2.2⟩

/-- In the viewer of two files, the choice of the second. -/
example : ∃ s f, Reachable fourAndThree twoFiles [] 0 s ∧ "2".toList ≠ s.iValue ∧
    ({ s with iValue := "2".toList } : State).selectedFile = .ok f ∧ f ∈ twoFiles := by
  obtain ⟨s, h, he⟩ := fourAndThree_create
  refine ⟨s, "dump-Trimer-P1.00-T0.40-ID2.gsd".toList, .start _ h, ?_, ?_, by decide⟩
  · rw [he]
    decide
  · rw [he]
    rfl

end Verif.Viewer
