import Verif.Viewer.NameProps
/-!
# Property C127: what makes a page consistent again
-/

namespace Verif.Viewer

variable (env : Env)

/-- The event changes which pressure, temperature, crystal or iteration is chosen. -/
def Event.Chooses (s : State) : Event → Prop
  | .pressure i => i ≠ s.pActive
  | .temperature v => v ≠ s.tValue
  | .crystal i => i ≠ s.cActive
  | .iteration v => v ≠ s.iValue
  | _ => False

/-- The chosen file is the open one, and its name is shown. -/
def SameFile (s : State) : Prop :=
  ∃ f n, s.selectedFile = .ok f ∧ s.trajectory = some (f, n) ∧ s.filename = some f

/-- **C127, again right.**  Whatever went wrong before, another choice makes everything belong together again as soon
as it raises no exception. -/
theorem C127_restored (s : State) (hi : 0 ≤ s.index) (e : Event) (he : e.Chooses s)
    (h : (e.handle env s).2 = none) : Consistent (e.handle env s).1 := by
  have h' : e.handle env s = ((e.handle env s).1, none) := by rw [← h]
  cases e with
  | pressure i =>
    have hne : s.pActive ≠ i := fun e => he e.symm
    simp only [Event.handle, if_neg hne] at h' ⊢
    exact updateTemperature_calm env (s := { s with pActive := i }) hi h'
  | temperature v =>
    have hne : s.tValue ≠ v := fun e => he e.symm
    simp only [Event.handle, setTemperature, if_neg hne] at h' ⊢
    exact updateCrystal_calm env (s := { s with tValue := v }) hi h'
  | crystal i =>
    have hne : s.cActive ≠ i := fun e => he e.symm
    simp only [Event.handle, setCrystal, if_neg hne] at h' ⊢
    exact updateIndex_calm env (s := { s with cActive := i }) hi h'
  | iteration v =>
    have hne : s.iValue ≠ v := fun e => he e.symm
    simp only [Event.handle, setIter, if_neg hne] at h' ⊢
    exact updateTrajectory_calm env (s := { s with iValue := v }) hi h'
  | _ => exact he.elim

theorem updateFrame_consistent {s s' : State} (hi : 0 ≤ s.index) (h : updateFrame env s = (s', none)) :
    Consistent s' ↔ SameFile s := by
  obtain ⟨f, n, i, e1, e2, rfl⟩ := updateFrame_none env h
  obtain ⟨k1, k2⟩ := frameIndex_ok e2
  constructor
  · rintro ⟨f', n', g1, g2, g3, -⟩
    exact ⟨f', n', g1, g2, g3⟩
  · rintro ⟨f', n', g1, g2, g3⟩
    rw [e1] at g2
    cases g2
    exact ⟨f, n, g1, e1, g3, i, k1, k2 hi, rfl⟩

/-- **C127, exactly.**  After another frame has been chosen with the slider, or another algorithm, without exception,
everything belongs together iff the chosen file was the open one and its name was shown. -/
theorem C127_exactly (s : State) :
    (∀ k, 0 ≤ s.index → ((Event.order k).handle env s).2 = none →
      (Consistent ((Event.order k).handle env s).1 ↔ SameFile s)) ∧
    ∀ v, (Event.slide v).enabled s → v ≠ s.index → ((Event.slide v).handle env s).2 = none →
      (Consistent ((Event.slide v).handle env s).1 ↔ SameFile s) := by
  constructor
  · intro k hi h
    exact updateFrame_consistent env (s := { s with oActive := k }) hi (by
      rw [← h]
      rfl)
  · rintro v ⟨sl, hsl, h0, -⟩ hv h
    have hne : sl.value ≠ v := by
      simp only [State.index, hsl] at hv
      exact fun e => hv e.symm
    have hs : (Event.slide v).handle env s = updateFrame env { s with slider := some { sl with value := v } } := by
      simp only [Event.handle, setSlider, hsl, if_neg hne]
    rw [hs] at h ⊢
    exact updateFrame_consistent env (s := { s with slider := some { sl with value := v } }) h0 (by rw [← h])

/-- A slider that has been moved, and a choice of the other file, which raises nothing. -/
example : ∃ s, 0 ≤ s.index ∧ (Event.iteration "2".toList).Chooses s ∧
    ((Event.iteration "2".toList).handle fourAndThree s).2 = none ∧ (Event.slide 2).enabled s ∧ 2 ≠ s.index := by
  obtain ⟨s, -, he⟩ := fourAndThree_create
  have h1 : s.index = 0 := by rw [he]; rfl
  have h2 : s.slider = some ⟨0, 4⟩ := by rw [he]; rfl
  have h3 : s.iValue = "1".toList := by rw [he]; rfl
  refine ⟨s, by rw [h1], ?_, ?_, ⟨_, h2, by decide, by decide⟩, by rw [h1]; decide⟩
  · show "2".toList ≠ s.iValue
    rw [h3]
    decide
  · rw [he]
    rfl

end Verif.Viewer
