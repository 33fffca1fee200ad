import Verif.Pipeline.GrownProps
/-!
# Exactly when a keyframe of a file that has grown gets the same frames first, C97
-/

namespace Verif.Pipeline

open Verif.Gsd Verif.StepSize

variable {α : Type}

/-- Increasing frames are those before step `m` and then the others. -/
theorem split_at (m : Int) : ∀ l : List (GFrame α), Increasing l →
    l = l.filter (fun f => decide (f.timestep < m)) ++ l.filter (fun f => decide (m ≤ f.timestep))
  | [], _ => rfl
  | f :: l, h => by
    obtain ⟨h1, h2⟩ := List.pairwise_cons.1 h
    by_cases hf : f.timestep < m
    · rw [List.filter_cons_of_pos (by simpa using hf), List.filter_cons_of_neg (by simpa using hf),
        List.cons_append, ← split_at m l h2]
    · rw [List.filter_cons_of_neg (by simpa using hf), List.filter_cons_of_pos (by simpa using hf)]
      have e1 : l.filter (fun f => decide (f.timestep < m)) = [] := by
        rw [List.filter_eq_nil_iff]
        intro g hg
        have := h1 g hg
        simp only [decide_eq_true_eq]
        omega
      have e2 : l.filter (fun f => decide (m ≤ f.timestep)) = l := by
        rw [List.filter_eq_self]
        intro g hg
        have := h1 g hg
        simp only [decide_eq_true_eq]
        omega
      rw [e1, e2, List.nil_append]

theorem given_increasing (raws : List (Raw α)) (stepsMax : Option Int) (interval kmax linear m : Int)
    (hm : stepsToRead raws stepsMax = .ok m) (hm0 : 0 ≤ m) (hi : 1 ≤ interval) (hl : 1 ≤ linear)
    (hinc : Increasing (readable raws)) (k : ℕ) :
    Increasing (given k (readGsd raws stepsMax (some linear) interval kmax).1) :=
  hinc.sublist ((List.filter_sublist.map Prod.snd).trans
    (C11_exponential_sound raws stepsMax interval kmax linear m hm hm0 hi hl).1)

/-- **C97, exponential steps without `steps_max`, exactly.**  What keyframe `k` gets from the shorter file is the beginning
of what it gets from the longer one iff the longer file also gives it the last frame of the shorter one, when the shorter
one does. -/
theorem C97_exactly (raws more : List (Raw α)) (m m' interval kmax linear : Int) (hc : OnlyCorrupt raws)
    (hc' : OnlyCorrupt more) (hinc : Increasing (readable (raws ++ more)))
    (hm : getNumSteps raws = .ok m) (hm' : getNumSteps (raws ++ more) = .ok m') (h0 : 0 ≤ m) (h0' : 0 ≤ m')
    (hi : 1 ≤ interval) (hl : 1 ≤ linear) (k : ℕ) :
    given k (readGsd raws none (some linear) interval kmax).1 <+:
        given k (readGsd (raws ++ more) none (some linear) interval kmax).1 ↔
      ∀ f ∈ given k (readGsd raws none (some linear) interval kmax).1, f.timestep = m →
        f ∈ given k (readGsd (raws ++ more) none (some linear) interval kmax).1 := by
  obtain ⟨hA, hle⟩ := C97_last raws more m m' interval kmax linear hc hc' hinc hm hm' h0 hi hl k
  have happ : readable (raws ++ more) = readable raws ++ readable more := by
    unfold readable; rw [List.filterMap_append]
  have hincS : Increasing (readable raws) := by
    rw [happ] at hinc
    exact (List.pairwise_append.1 hinc).1
  have iS := given_increasing raws none interval kmax linear m (by simp [stepsToRead, hm]) h0 hi hl hincS k
  have iL := given_increasing (raws ++ more) none interval kmax linear m' (by simp [stepsToRead, hm']) h0' hi hl hinc k
  generalize given k (readGsd raws none (some linear) interval kmax).1 = S at *
  generalize given k (readGsd (raws ++ more) none (some linear) interval kmax).1 = L at *
  constructor
  · intro h f hf _
    exact h.subset hf
  · intro h
    rw [split_at m S iS, split_at m L iL, hA, List.prefix_append_right_inj]
    have iS' : Increasing (S.filter (fun f => decide (m ≤ f.timestep))) := iS.sublist List.filter_sublist
    have iL' : Increasing (L.filter (fun f => decide (m ≤ f.timestep))) := iL.sublist List.filter_sublist
    cases hS : S.filter (fun f => decide (m ≤ f.timestep)) with
    | nil => exact List.nil_prefix
    | cons f r =>
      have hmemS : ∀ g ∈ f :: r, g ∈ S ∧ g.timestep = m := by
        intro g hg
        rw [← hS, List.mem_filter] at hg
        have := hle g hg.1
        have := of_decide_eq_true hg.2
        exact ⟨hg.1, by omega⟩
      have hr : r = [] := by
        cases r with
        | nil => rfl
        | cons g r =>
          exfalso
          rw [hS] at iS'
          have h1 := (List.pairwise_cons.1 iS').1 g (by simp)
          have h2 := (hmemS f (by simp)).2
          have h3 := (hmemS g (by simp)).2
          omega
      subst hr
      obtain ⟨hfS, hfm⟩ := hmemS f (by simp)
      have hfL : f ∈ L.filter (fun f => decide (m ≤ f.timestep)) :=
        List.mem_filter.2 ⟨h f hfS hfm, by simp [hfm]⟩
      cases hL : L.filter (fun f => decide (m ≤ f.timestep)) with
      | nil => rw [hL] at hfL; simp at hfL
      | cons g t =>
        have hgm : m ≤ g.timestep := by
          have : g ∈ L.filter (fun f => decide (m ≤ f.timestep)) := by rw [hL]; simp
          exact of_decide_eq_true (List.mem_filter.1 this).2
        rw [hL] at hfL iL'
        rcases List.mem_cons.1 hfL with rfl | hft
        · exact ⟨t, rfl⟩
        · exfalso
          have := (List.pairwise_cons.1 iL').1 f hft
          omega

/-- Frames 0, 1 and 2, the last of which is on the series when the file goes on, and frames 0, 1 and 5, the last of which
is not. -/
example : getNumSteps (sample [0, 1, 2]) = .ok 2 ∧ getNumSteps (sample [0, 1, 2] ++ sample [10]) = .ok 10 ∧
    (given 0 (readGsd (sample [0, 1, 2]) none (some 2) 100 1).1).map (·.timestep) = [0, 1, 2] ∧
    (given 0 (readGsd (sample [0, 1, 2] ++ sample [10]) none (some 2) 100 1).1).map (·.timestep) = [0, 1, 2, 10] ∧
    (given 0 (readGsd (sample [0, 1, 5] ++ sample [10]) none (some 1) 100 1).1).map (·.timestep) = [0, 1, 10] ∧
    Increasing (readable (sample [0, 1, 2] ++ sample [10])) := by
  refine ⟨by decide, by decide, by decide, by decide, by decide, by unfold Increasing; decide⟩

end Verif.Pipeline
