import Verif.Gsd.Lemmas
import Verif.Gsd.RepeatSpec
/-!
# The exponential reader on files with repeated frames
-/

namespace Verif.Gsd

variable {α : Type}

theorem catchFrames_skip (m : Int) (fe : Option PyErr) (cur : Int × List Nat) (ss : List (Int × List Nat))
    (rest : List (GFrame α)) : ∀ (again : List (GFrame α)), (∀ g ∈ again, g.timestep < cur.1) →
    catchFrames m fe cur (again ++ rest) ss = catchFrames m fe cur rest ss := by
  intro again
  induction again with
  | nil => intro _; rfl
  | cons g again ih =>
    intro h
    rw [List.cons_append, catchFrames, if_pos (h g (by simp))]
    exact ih (fun g hg => h g (by simp [hg]))

/-- No step before the last frame is missing. -/
def Full (fs : List (GFrame α)) (ss : List (Int × List Nat)) : Prop :=
  ∀ s ∈ ss, (∃ f ∈ fs, s.1 ≤ f.timestep) → ∃ f ∈ fs, f.timestep = s.1

theorem Full.tail {f : GFrame α} {fs : List (GFrame α)} {ss : List (Int × List Nat)} (h : Full (f :: fs) ss)
    (hs : ∀ s ∈ ss, f.timestep < s.1) : Full fs ss := by
  intro s hmem hex
  obtain ⟨g, hg, hle⟩ := hex
  obtain ⟨g', hg', he⟩ := h s hmem ⟨g, by simp [hg], hle⟩
  rcases List.mem_cons.1 hg' with rfl | hg'
  · have := hs s hmem
    omega
  · exact ⟨g', hg', he⟩

theorem Full.not_before {f : GFrame α} {fs : List (GFrame α)} {cur : Int × List Nat} {ss : List (Int × List Nat)}
    (h : Full (f :: fs) (cur :: ss)) (hinc : Increasing (f :: fs)) : ¬ cur.1 < f.timestep := by
  intro hlt
  obtain ⟨g, hg, he⟩ := h cur (by simp) ⟨f, by simp, hlt.le⟩
  rcases List.mem_cons.1 hg with rfl | hg
  · omega
  · have := (List.pairwise_cons.1 hinc).1 g hg
    omega

theorem exp_repeats (m : Int) {fs fs' : List (GFrame α)} (h : Repeats fs fs') : Increasing fs →
    (∀ (ss : List (Int × List Nat)), ss.Pairwise (fun a b => a.1 < b.1) → Full fs ss →
      expReader m none fs' ss = expReader m none fs ss) ∧
    (∀ (cur : Int × List Nat) (ss : List (Int × List Nat)), (cur :: ss).Pairwise (fun a b => a.1 < b.1) →
      Full fs (cur :: ss) → catchFrames m none cur fs' ss = expReader m none fs (cur :: ss) ∧
        catchFrames m none cur fs' ss = catchFrames m none cur fs ss) := by
  induction h with
  | nil =>
    intro _
    refine ⟨fun ss _ _ => rfl, fun cur ss _ _ => ?_⟩
    simp [catchFrames, expReader]
  | @cons f again l l' same rest ih =>
    intro hinc
    have hinc' : Increasing l := (List.pairwise_cons.1 hinc).2
    obtain ⟨ih1, ih2⟩ := ih hinc'
    -- what follows a frame that has been used
    have key : ∀ (ss : List (Int × List Nat)), ss.Pairwise (fun a b => a.1 < b.1) →
        (∀ s ∈ ss, f.timestep < s.1) → Full l ss →
        expReader m none (again ++ l') ss = expReader m none l ss := by
      intro ss hss hlt hF
      cases again with
      | nil => exact ih1 ss hss hF
      | cons r again =>
        cases ss with
        | nil =>
          cases l <;> simp [expReader]
        | cons c ss =>
          have hr : r.timestep = f.timestep := same r (by simp)
          have hc : f.timestep < c.1 := hlt c (by simp)
          rw [List.cons_append, expReader, if_pos (by omega),
            catchFrames_skip m none c ss l' again (fun g hg => by rw [same g (by simp [hg])]; exact hc)]
          exact (ih2 c ss hss hF).1
    refine ⟨fun ss hss hF => ?_, fun cur ss hss hF => ?_⟩
    · cases ss with
      | nil => simp [expReader]
      | cons cur ss =>
        have hnb := hF.not_before hinc
        have hcs := List.pairwise_cons.1 hss
        rw [expReader, expReader]
        by_cases h1 : cur.1 > f.timestep
        · rw [if_pos h1, if_pos h1, catchFrames_skip m none cur ss l' again
            (fun g hg => by rw [same g hg]; exact h1)]
          refine (ih2 cur ss hss (hF.tail ?_)).2
          intro s hs
          rcases List.mem_cons.1 hs with rfl | hs
          · exact h1
          · exact lt_trans h1 (hcs.1 s hs)
        · rw [if_neg h1, if_neg h1, if_neg hnb, if_neg hnb]
          have hlt : ∀ s ∈ ss, f.timestep < s.1 := fun s hs => by
            have := hcs.1 s hs
            omega
          rw [key ss hcs.2 hlt (Full.tail (fun s hs => hF s (by simp [hs])) hlt)]
    · have hnb := hF.not_before hinc
      have hcs := List.pairwise_cons.1 hss
      rw [expReader, catchFrames, catchFrames]
      by_cases h1 : f.timestep < cur.1
      · rw [if_pos h1, if_pos h1, if_pos h1, catchFrames_skip m none cur ss l' again
          (fun g hg => by rw [same g hg]; exact h1)]
        have := (ih2 cur ss hss (hF.tail (by
          intro s hs
          rcases List.mem_cons.1 hs with rfl | hs
          · exact h1
          · exact lt_trans h1 (hcs.1 s hs)))).2
        exact ⟨this, this⟩
      · rw [if_neg h1, if_neg h1, if_neg (show ¬ cur.1 > f.timestep from h1), if_neg hnb]
        have hlt : ∀ s ∈ ss, f.timestep < s.1 := fun s hs => by
          have := hcs.1 s hs
          omega
        rw [key ss hcs.2 hlt (Full.tail (fun s hs => hF s (by simp [hs])) hlt)]
        exact ⟨rfl, rfl⟩

end Verif.Gsd
