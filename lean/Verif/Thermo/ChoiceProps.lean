import Verif.Thermo.Props
/-!
# Property C109: exactly which choices of a directory lead to wrong data
-/

namespace Verif.Thermo

variable {V : Type}

/-- The two tables agree in what is shown. -/
def SameShown (factor : String) (df df' : DF V) : Prop :=
  ∀ q ∈ ["timestep", "temperature", "pressure", "potential_energy", "kinetic_energy", factor],
    Dict.get? df q = Dict.get? df' q

/-- **C109.** Choosing another directory in which there is no file of the name chosen before shows the data of
that directory, whatever was shown before. -/
theorem C109_other_name (disk : Disk V) (hg : Good disk) (s : St V) (new : String) (hne : new ≠ s.dir)
    (hold : s.file ∉ disk.glob new) :
    (step disk s (.dir new)).2 = none ∧ Shows disk (step disk s (.dir new)).1 := by
  have := setDir_fine hg (s := s) new hold
  simp only [step, setDir, if_neg hne]
  exact ⟨this.1, this.2.shows⟩

/-- **C109, exactly.** In directories with good files, when the right data are shown and a directory is
chosen, the right data are shown afterwards exactly when it is the same directory, or there is no file of the
name chosen in it, or the file of that name has the same values in everything that is shown. -/
theorem C109_exactly (disk : Disk V) (hg : Good disk) (s : St V) (h : Shows disk s) (new : String) :
    Shows disk (step disk s (.dir new)).1 ↔ new = s.dir ∨ s.file ∉ disk.glob new ∨
      ∃ df df', disk.read s.dir s.file = .ok df ∧ disk.read new s.file = .ok df' ∧
        SameShown s.factor df df' := by
  by_cases hne : new = s.dir
  · simp only [hne, true_or, iff_true]
    simpa [step, setDir] using h
  by_cases hold : s.file ∉ disk.glob new
  · simp only [hold, not_false_eq_true, true_or, or_true, iff_true]
    exact (C109_other_name disk hg s new hne hold).2
  have hin := not_not.1 hold
  rw [C109_same_name disk s new hin hne]
  simp only [hne, hold, false_or]
  obtain ⟨-, df, hread, h1, h2, h3, h4⟩ := h
  constructor
  · rintro ⟨-, df', hread', g1, g2, g3, g4⟩
    refine ⟨df, df', hread, hread', ?_⟩
    intro q hq
    simp only [List.mem_cons, List.not_mem_nil, or_false] at hq
    rcases hq with rfl | rfl | rfl | rfl | rfl | rfl
    · rw [← h1]; exact g1
    · rw [← h2 _ (by simp)]; exact g2 _ (by simp)
    · rw [← h2 _ (by simp)]; exact g2 _ (by simp)
    · rw [← h2 _ (by simp)]; exact g2 _ (by simp)
    · rw [← h2 _ (by simp)]; exact g2 _ (by simp)
    · rw [← h4]; exact g4
  · rintro ⟨df₀, df', hread₀, hread', hs⟩
    rw [hread] at hread₀
    obtain rfl := Except.ok.inj hread₀
    refine ⟨hin, df', hread', ?_, ?_, ?_, ?_⟩
    · exact h1.trans (hs _ (by simp))
    · intro q hq
      refine (h2 q hq).trans (hs q ?_)
      simp only [List.mem_cons, List.not_mem_nil, or_false] at hq ⊢
      tauto
    · exact h3.trans (hs _ (by simp))
    · exact h4.trans (hs _ (by simp))

/-- Two directories with a file of the same name and other values: after the start the right data are shown,
and the other directory has the file. -/
example : ∃ disk : Disk ℕ, Good disk ∧ Shows disk (start disk).1 ∧ (start disk).1.file ∈ disk.glob "other" ∧
    ¬ Shows disk (step disk (start disk).1 (.dir "other")).1 := by
  have hg : Good (⟨fun _ => ["thermo-1"], fun d _ => .ok (flat (if d = "." then 0 else 1))⟩ : Disk ℕ) :=
    ⟨fun d h => (by cases h), fun d f _ => ⟨_, rfl, flat_complete _⟩, by
      intro d f hf
      simp only [List.mem_singleton] at hf
      subst hf
      decide⟩
  have hs : Shows (⟨fun _ => ["thermo-1"], fun d _ => .ok (flat (if d = "." then 0 else 1))⟩ : Disk ℕ)
      (start ⟨fun _ => ["thermo-1"], fun d _ => .ok (flat (if d = "." then 0 else 1))⟩).1 :=
    (setDir_fine hg (s := initial) "." (by decide)).2.shows
  refine ⟨_, hg, hs, by decide, fun h => ?_⟩
  rcases (C109_exactly _ hg _ hs "other").1 h with h | h | ⟨df, df', h1, h2, h3⟩
  · exact absurd h (by decide)
  · exact absurd h (by decide)
  · obtain rfl := Except.ok.inj h1
    obtain rfl := Except.ok.inj h2
    exact absurd (h3 "timestep" (by simp)) (by decide)

end Verif.Thermo
