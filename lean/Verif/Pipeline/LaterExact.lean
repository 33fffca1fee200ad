import Verif.Pipeline.LaterProps
import Verif.Pipeline.RepeatExact
/-!
# Property C153: exactly when a trajectory with linear steps is read in the same way with more steps on the counter
-/

namespace Verif.Pipeline

open Verif.Gsd

variable {α : Type}

/-- With the same keyframes for both the frame that starts the first one is at a multiple of the interval in both. -/
theorem dvd_of_linear_later {m interval kmax c : Int} (hi : 1 ≤ interval) (hk : 0 ≤ kmax) :
    ∀ fs : List (GFrame α),
      linearReader (some (m + c)) interval kmax none (fs.map (later c)) [] =
        ((linearReader (some m) interval kmax none fs []).1.map (fun p => (p.1, later c p.2)),
          (linearReader (some m) interval kmax none fs []).2) →
      (∃ f ∈ upTo m fs, interval ∣ f.timestep) → interval ∣ c
  | [], _, ⟨f, hf, _⟩ => by simp [upTo] at hf
  | g :: fs, h, ⟨f, hf, hd⟩ => by
    unfold upTo at hf
    rw [List.takeWhile_cons] at hf
    by_cases hg : g.timestep ≤ m
    · rw [if_pos (by simpa using hg)] at hf
      have hn : (some m).any (fun m => decide (g.timestep > m)) = false := by simpa using hg
      have hn' : (some (m + c)).any (fun m => decide (g.timestep + c > m)) = false := by simpa using hg
      have h0 : interval ≠ 0 := by omega
      simp only [List.map_cons, linearReader, if_neg h0, later, hn, hn', Bool.false_eq_true, if_false] at h
      rw [Prod.mk.injEq, List.cons.injEq, Prod.mk.injEq] at h
      obtain ⟨⟨⟨h1, _⟩, h2⟩, h3⟩ := h
      by_cases hgd : interval ∣ g.timestep
      · have hu : updateIndex interval kmax g.timestep [] = [0] := by
          unfold updateIndex
          rw [if_pos ⟨Int.emod_eq_zero_of_dvd hgd, by simpa using hk⟩]
          rfl
        rw [hu] at h1
        unfold updateIndex at h1
        split at h1
        · next hc => exact (Int.dvd_add_right hgd).1 (Int.dvd_of_emod_eq_zero hc.1)
        · simp at h1
      · have hu : updateIndex interval kmax g.timestep [] = [] := by
          unfold updateIndex
          rw [if_neg (fun hc => hgd (Int.dvd_of_emod_eq_zero hc.1))]
        rw [hu] at h1 h2 h3
        rw [h1] at h2 h3
        rcases List.mem_cons.1 hf with rfl | hf
        · exact absurd hd hgd
        · exact dvd_of_linear_later hi hk fs (Prod.ext h2 h3) ⟨f, hf, hd⟩
    · rw [if_neg (by simpa using hg)] at hf
      simp at hf

/-- **C153, linear steps, exactly.**  When some frame up to `steps_max` starts a keyframe, the file with `c` more steps
on the counter is read with the same keyframes iff `c` is a multiple of `keyframe_interval`. -/
theorem C153_exactly (raws : List (Raw α)) (m interval kmax c : Int) (hc : OnlyCorrupt raws) (hi : 1 ≤ interval)
    (hk : 0 ≤ kmax) (hf : ∃ f ∈ upTo m (readable raws), interval ∣ f.timestep) :
    readGsd (laterFile c raws) (some (m + c)) none interval kmax =
        ((readGsd raws (some m) none interval kmax).1.map (fun p => (p.1, later c p.2)),
          (readGsd raws (some m) none interval kmax).2) ↔
      interval ∣ c := by
  constructor
  · intro h
    simp only [readGsd, gsdLinear, iterTrajectory_eq _ hc, iterTrajectory_eq _ (corrupt_later c hc),
      readable_later] at h
    exact dvd_of_linear_later hi hk _ h hf
  · intro h
    exact readLinear_later h raws (some m) kmax

/-- Steps 3, 4, 7 with keyframes every 2 steps: the second frame starts one. -/
example : ∃ f ∈ upTo 5 (readable (sample [3, 4, 7])), (2 : Int) ∣ f.timestep :=
  ⟨⟨4, ()⟩, by decide, by decide⟩

/-- **C153, linear steps, exactly.**  Without any such frame, with `c` more steps the keyframes are those of the file as
it is iff none of the frames comes to a multiple of the interval: there are no keyframes at all. -/
theorem C153_none_exactly (raws : List (Raw α)) (m interval kmax c : Int) (hc : OnlyCorrupt raws) (hi : 1 ≤ interval)
    (hk : 0 ≤ kmax) (hf : ∀ f ∈ upTo m (readable raws), ¬ interval ∣ f.timestep) :
    readGsd (laterFile c raws) (some (m + c)) none interval kmax =
        ((readGsd raws (some m) none interval kmax).1.map (fun p => (p.1, later c p.2)),
          (readGsd raws (some m) none interval kmax).2) ↔
      ∀ f ∈ upTo m (readable raws), ¬ interval ∣ f.timestep + c := by
  simp only [readGsd, gsdLinear, iterTrajectory_eq _ hc, iterTrajectory_eq _ (corrupt_later c hc), readable_later]
  revert hf
  induction readable raws with
  | nil =>
    intro _
    simp [linearReader, upTo]
  | cons g fs ih =>
    intro hf
    unfold upTo at hf ih ⊢
    rw [List.takeWhile_cons] at hf ⊢
    by_cases hg : g.timestep ≤ m
    · rw [if_pos (by simpa using hg)] at hf ⊢
      have hn : (some m).any (fun m => decide (g.timestep > m)) = false := by simpa using hg
      have hn' : (some (m + c)).any (fun m => decide (g.timestep + c > m)) = false := by simpa using hg
      have h0 : interval ≠ 0 := by omega
      have hu : updateIndex interval kmax g.timestep [] = [] := by
        unfold updateIndex
        rw [if_neg (fun h => hf g (List.mem_cons_self ..) (Int.dvd_of_emod_eq_zero h.1))]
      have ih := ih (fun f h => hf f (List.mem_cons_of_mem _ h))
      have hn2 : (some (m + c)).any (fun m => decide ((later c g).timestep > m)) = false := hn'
      have e2 : (later c g).timestep = g.timestep + c := rfl
      simp only [List.map_cons, linearReader, if_neg h0, hn, hu, hn2, Bool.false_eq_true, if_false]
      rw [e2]
      rw [List.forall_mem_cons, ← ih]
      by_cases hd : interval ∣ g.timestep + c
      · have hu' : updateIndex interval kmax (g.timestep + c) [] = [0] := by
          unfold updateIndex
          rw [if_pos ⟨Int.emod_eq_zero_of_dvd hd, by simpa using hk⟩]
          rfl
        rw [hu']
        constructor
        · intro h
          rw [Prod.mk.injEq, List.cons.injEq, Prod.mk.injEq] at h
          exact absurd h.1.1.1 (by simp)
        · intro h
          exact absurd hd h.1
      · have hu' : updateIndex interval kmax (g.timestep + c) [] = [] := by
          unfold updateIndex
          rw [if_neg (fun h => hd (Int.dvd_of_emod_eq_zero h.1))]
        rw [hu']
        constructor
        · intro h
          rw [Prod.mk.injEq, List.cons.injEq] at h
          exact ⟨hd, Prod.ext h.1.2 h.2⟩
        · intro h
          rw [Prod.mk.injEq, List.cons.injEq]
          rw [h.2]
          exact ⟨⟨rfl, rfl⟩, rfl⟩
    · rw [if_neg (by simpa using hg)]
      have hn : (some m).any (fun m => decide (g.timestep > m)) = true := by simpa using hg
      have hn' : (some (m + c)).any (fun m => decide (g.timestep + c > m)) = true := by simpa using hg
      have h0 : interval ≠ 0 := by omega
      simp only [List.map_cons, linearReader, if_neg h0, hn, if_true]
      simp [later, hn']

/-- Steps 1 and 4 with keyframes every 3 steps: none starts there, but with two steps more on the counter one does. -/
example : (∀ f ∈ upTo 5 (readable (sample [1, 4, 7])), ¬ (3 : Int) ∣ f.timestep) ∧
    ¬ ∀ f ∈ upTo 5 (readable (sample [1, 4, 7])), ¬ (3 : Int) ∣ f.timestep + 2 := by decide

end Verif.Pipeline
