import Verif.Pipeline.ReaderProps
import Verif.Pipeline.LimitProps
/-!
# What a file that has grown adds to the yields
-/

namespace Verif.Pipeline

open Verif.Gsd Verif.StepSize

variable {α : Type}

/-- `x` goes on as `y`, with frames from `more` only. -/
def GoesOn (more : List (GFrame α)) (x y : List (List Nat × GFrame α)) : Prop :=
  ∃ r, y = x ++ r ∧ (r.map Prod.snd).Sublist more

theorem exp_goesOn (m : Int) (fe : Option PyErr) (more : List (GFrame α)) : ∀ (fs : List (GFrame α)),
    (∀ ss, GoesOn more (expReader m none fs ss).1 (expReader m fe (fs ++ more) ss).1) ∧
    (∀ cur ss, GoesOn more (catchFrames m none cur fs ss).1 (catchFrames m fe cur (fs ++ more) ss).1) := by
  have hrefl : ∀ x : List (List Nat × GFrame α), GoesOn more x x :=
    fun x => ⟨[], (List.append_nil x).symm, List.nil_sublist _⟩
  have hemit : ∀ (cur : Int × List Nat) (f : GFrame α) (x y : List (List Nat × GFrame α) × Option PyErr),
      GoesOn more x.1 y.1 → GoesOn more (emit m cur f x).1 (emit m cur f y).1 := by
    intro cur f x y h
    unfold emit
    split
    · exact hrefl _
    · split
      · obtain ⟨r, h1, h2⟩ := h
        exact ⟨r, by simp [h1], h2⟩
      · exact h
  intro fs
  induction fs with
  | nil =>
    constructor
    · intro ss
      exact ⟨_, by simp [expReader], ((exp_sublist m fe more).1 ss).1⟩
    · intro cur ss
      exact ⟨_, by simp [catchFrames], ((exp_sublist m fe more).2 cur ss).1⟩
  | cons f fs ih =>
    constructor
    · intro ss
      cases ss with
      | nil => simpa [expReader] using hrefl []
      | cons cur ss =>
        rw [List.cons_append, expReader, expReader]
        split
        · exact ih.2 cur ss
        · split
          · cases catchSteps f.timestep cur ss with
            | none => exact hrefl _
            | some c => exact hemit _ _ _ _ (ih.1 c.2)
          · exact hemit _ _ _ _ (ih.1 ss)
    · intro cur ss
      rw [List.cons_append, catchFrames, catchFrames]
      split
      · exact ih.2 cur ss
      · exact hemit _ _ _ _ (ih.1 ss)

theorem numSteps_loop (raws : List (Raw α)) (m : Int) : ∀ (r : Nat) (pre bad : List (Raw α)),
    raws = pre ++ bad → (∀ x ∈ bad, x = .error .runtimeError) →
    numStepsLoop raws r (bad.length + 1) = .ok m →
    ∃ pre f bad, raws = pre ++ .ok f :: bad ∧ (∀ x ∈ bad, x = .error .runtimeError) ∧ f.timestep = m
  | 0, pre, bad, _, _, h => by cases h
  | r + 1, pre, bad, he, hb, h => by
    rw [numStepsLoop] at h
    have hlast : fromEnd raws (bad.length + 1) = pre.getLast? := by
      unfold fromEnd
      rw [he, List.length_append]
      rcases List.eq_nil_or_concat pre with rfl | ⟨p, x, rfl⟩
      · simp
      · rw [if_pos (by simp)]
        simp only [List.concat_eq_append, List.append_assoc, List.singleton_append, List.length_append,
          List.length_cons, List.length_nil, Nat.zero_add, List.getLast?_concat]
        rw [show p.length + 1 + bad.length - (bad.length + 1) = p.length by omega]
        simp
    rw [hlast] at h
    rcases List.eq_nil_or_concat pre with rfl | ⟨p, x, rfl⟩
    · simp at h
    · rw [List.concat_eq_append, List.getLast?_concat] at h
      match x, h with
      | .ok f, h => exact ⟨p, f, bad, by simp [he], hb, Except.ok.inj h⟩
      | .error .runtimeError, h =>
        refine numSteps_loop raws m r p (.error .runtimeError :: bad) (by simp [he]) ?_ (by simpa using h)
        intro x hx
        rcases List.mem_cons.1 hx with rfl | hx
        · rfl
        · exact hb x hx

/-- The number of steps is that of the last readable frame. -/
theorem numSteps_last (raws : List (Raw α)) (m : Int) (h : getNumSteps raws = .ok m) :
    ∃ pre f bad, raws = pre ++ .ok f :: bad ∧ (∀ x ∈ bad, x = .error .runtimeError) ∧ f.timestep = m :=
  numSteps_loop raws m 10 raws [] (by simp) (by simp) h

theorem readable_corrupt (bad : List (Raw α)) (h : ∀ x ∈ bad, x = .error .runtimeError) : readable bad = [] := by
  unfold readable
  rw [List.filterMap_eq_nil_iff]
  intro x hx
  rw [h x hx]

theorem numSteps_readable (raws : List (Raw α)) (m : Int) (h : getNumSteps raws = .ok m) :
    ∃ fs f, readable raws = fs ++ [f] ∧ f.timestep = m := by
  obtain ⟨pre, f, bad, rfl, hb, hf⟩ := numSteps_last raws m h
  refine ⟨readable pre, f, ?_, hf⟩
  have := readable_corrupt bad hb
  unfold readable at this ⊢
  rw [List.filterMap_append, List.filterMap_cons, this]

end Verif.Pipeline
