import Verif.Viewer.Props
/-!
# Property C69: exactly when the slider is at a frame
-/

namespace Verif.Viewer

variable (env : Env)

/-- **C69, exactly.**  When all trajectories can be opened and read, the frame at the slider is shown iff the slider is
not just behind the last frame. -/
theorem C69_exactly (files : List Str) (timers : List Nat) (fresh : Nat) (s : State)
    (ho : AllOpen env) (hr : AllRead env) (h : Reachable env files timers fresh s) :
    ShowsIndex s ↔ ∀ f n, s.trajectory = some (f, n) → s.index ≠ n := by
  constructor
  · rintro ⟨f, n, i, h1, h2, h3, -⟩ f' n' h'
    rw [h1] at h'
    cases h'
    omega
  · intro hne
    rcases C69_partial env files timers fresh s ho hr h with h | ⟨f, n, h1, h2⟩
    · exact h
    · exact absurd h2 (hne f n h1)

/-- In the directory of two files of three frames, both are met: a state with the slider at a frame, and one with the
slider behind the last. -/
example : (∃ s, Reachable threeFrames twoFiles [] 0 s) ∧
    ∃ s, Reachable threeFrames twoFiles [] 0 s ∧ ¬ ShowsIndex s := by
  have ho : AllOpen threeFrames := fun _ => ⟨3, rfl, by decide⟩
  have hr : AllRead threeFrames := ⟨fun _ _ => rfl, fun _ _ _ => rfl⟩
  obtain ⟨s, e, h, he, -, f, n, h1, h2⟩ := C69_refuted threeFrames twoFiles [] 0 (by decide) twoFiles_hasPT ho hr
  refine ⟨⟨s, h⟩, _, .step s e h he, ?_⟩
  rw [C69_exactly threeFrames twoFiles [] 0 _ ho hr (.step s e h he)]
  exact fun hall => hall f n h1 h2

end Verif.Viewer
