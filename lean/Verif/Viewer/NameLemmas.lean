import Verif.Viewer.NameSpec
import Verif.Viewer.StateLemmas
/-!
# Lemmas for C127
-/

namespace Verif.Viewer

open Verif.Names (Tree parseDirectory Under)

variable (env : Env)

theorem andThen_none {a b : Handler} {s s' : State} (h : andThen a b s = (s', none)) :
    ∃ s1, a s = (s1, none) ∧ b s1 = (s', none) := by
  unfold andThen at h
  rcases h1 : a s with ⟨s1, _ | e⟩
  · rw [h1] at h
    exact ⟨s1, rfl, h⟩
  · rw [h1] at h
    simp at h

theorem frameIndex_ok {n : Nat} {x : Int} {i : Nat} (h : frameIndex n x = .ok i) :
    i < n ∧ (0 ≤ x → x = i) := by
  unfold frameIndex at h
  split at h
  · split at h
    · injection h with h
      subst h
      exact ⟨by omega, fun _ => by omega⟩
    · cases h
  · split at h
    · injection h with h
      subst h
      exact ⟨by omega, fun _ => by omega⟩
    · cases h

theorem updateFrame_none {s s' : State} (h : updateFrame env s = (s', none)) :
    ∃ f n i, s.trajectory = some (f, n) ∧ frameIndex n s.index = .ok i ∧
      s' = { s with frame := some (f, i), title := if s.plot then some (f, i) else s.title,
                    shown := some ((f, i), s.oActive) } := by
  unfold updateFrame at h
  rcases h1 : s.trajectory with _ | ⟨f, n⟩
  · rw [h1] at h
    simp at h
  · rw [h1] at h
    simp only at h
    rcases h2 : frameIndex n s.index with e | i
    · rw [h2] at h
      simp at h
    · rw [h2] at h
      simp only at h
      rcases h3 : env.readErr f i with _ | e
      · rw [h3] at h
        simp only [updateData] at h
        rcases h4 : env.dataErr f i s.oActive with _ | e
        · rw [h4] at h
          simp only [Prod.mk.injEq, and_true] at h
          exact ⟨f, n, i, rfl, h2, h.symm⟩
        · rw [h4] at h
          simp at h
      · rw [h3] at h
        simp at h

/-- Moving the slider. -/
theorem setSlider_calm {s s' : State} {v : Int} (hv : 0 ≤ v) (hc : Consistent s)
    (h : setSlider env v s = (s', none)) : Consistent s' := by
  unfold setSlider at h
  rcases h1 : s.slider with _ | sl
  · rw [h1] at h
    simp at h
  · rw [h1] at h
    simp only at h
    split at h
    · injection h with h _
      rw [← h]
      exact hc
    · obtain ⟨f, n, i, e1, e2, rfl⟩ := updateFrame_none env h
      obtain ⟨f', n', g1, g2, g3, -⟩ := hc
      simp only at e1
      rw [g2] at e1
      cases e1
      obtain ⟨k1, k2⟩ := frameIndex_ok e2
      exact ⟨f, n, g1, g2, g3, i, k1, k2 hv, rfl⟩

theorem selectedFile_congr {s s' : State} (h : sel s = sel s') : s.selectedFile = s'.selectedFile := by
  simp only [sel, Prod.mk.injEq] at h
  obtain ⟨e1, e2, e3, e4, e5, e6, e7, e8, e9⟩ := h
  simp only [State.selectedFile, State.byCrystal, State.byTemperature, State.byPressure,
    State.pressure, State.temperature, State.crystal, e1, e2, e3, e5, e6, e7, e9]

/-- Where the slider is after it has been shortened. -/
theorem clampSlider_index (n : Nat) {s s' : State} {o : Option PyErr} (hi : 0 ≤ s.index)
    (h : clampSlider env n s = (s', o)) : 0 ≤ s'.index ∨ s'.index = (n : Int) - 1 := by
  unfold clampSlider at h
  rcases h1 : s.slider with _ | sl
  · rw [h1] at h
    simp only [Prod.mk.injEq] at h
    rw [← h.1]
    exact Or.inl hi
  · rw [h1] at h
    simp only at h
    have hend : ∀ (t : State) (w : Int), (setEnd w t).1.index = t.index := by
      intro t w
      unfold setEnd
      rcases ht : t.slider with _ | sl
      · rfl
      · simp only [State.index, ht]
    split at h
    · right
      have hs : (setSlider env ((n : Int) - 1) s).1.index = (n : Int) - 1 := by
        unfold setSlider
        rw [h1]
        simp only
        split
        · rename_i e
          simp only [State.index, h1, e]
        · have := congrArg Prod.snd (updateFrame_keeps env
            { s with slider := some { sl with value := (n : Int) - 1 } })
          simp only at this
          simp only [State.index, this]
      unfold andThen at h
      rcases h2 : setSlider env ((n : Int) - 1) s with ⟨s1, _ | e⟩
      · rw [h2] at h hs
        simp only at h hs
        rw [← hs, ← hend s1 ((n : Int) - 1), h]
      · rw [h2] at h hs
        simp only [Prod.mk.injEq] at h
        rw [← h.1]
        exact hs
    · left
      have := hend s ((n : Int) - 1)
      rw [h] at this
      simp only at this
      rw [this]
      exact hi

theorem updateTrajectory_calm {s s' : State} (hi : 0 ≤ s.index)
    (h : updateTrajectory env s = (s', none)) : Consistent s' := by
  unfold updateTrajectory at h
  rcases h1 : s.selectedFile with e | f
  · rw [h1] at h
    simp at h
  · rw [h1] at h
    simp only at h
    rcases h2 : env.opens f with e | n
    · rw [h2] at h
      simp at h
    · rw [h2] at h
      simp only at h
      obtain ⟨s2, h3, h4⟩ := andThen_none h
      obtain ⟨s3, h5, h6⟩ := andThen_none h4
      have hk := (clampSlider_keeps env n).tryAttribute { s with trajectory := some (f, n) }
      rw [h3] at hk
      simp only at hk
      have hix : 0 ≤ s2.index ∨ s2.index = (n : Int) - 1 := by
        unfold tryAttribute at h3
        rcases h7 : clampSlider env n { s with trajectory := some (f, n) } with ⟨s1, o⟩
        have := clampSlider_index env n (s := { s with trajectory := some (f, n) }) hi h7
        rw [h7] at h3
        rcases o with _ | e
        · simp only [Prod.mk.injEq, and_true] at h3
          rw [← h3]
          exact this
        · cases e <;> simp only [Prod.mk.injEq, and_true, reduceCtorEq, and_false] at h3
          rw [← h3]
          exact this
      obtain ⟨f', n', i, e1, e2, rfl⟩ := updateFrame_none env h5
      have htr : s2.trajectory = some (f, n) := core_trajectory hk
      rw [htr] at e1
      cases e1
      have hsel : s2.selectedFile = .ok f := by
        rw [selectedFile_congr (core_sel hk)]
        exact h1
      obtain ⟨k1, k2⟩ := frameIndex_ok e2
      simp only [showName, Prod.mk.injEq, and_true] at h6
      rw [← h6]
      exact ⟨f, n, hsel, htr, rfl, i, k1, k2 (by omega), rfl⟩

theorem updateTrajectory_noSlider {s : State} (hs : s.slider = none) :
    (updateTrajectory env s).1.slider = none := by
  unfold updateTrajectory
  rcases s.selectedFile with e | f
  · exact hs
  · simp only
    rcases env.opens f with e | n
    · exact hs
    · simp only
      have h1 : tryAttribute (clampSlider env n) { s with trajectory := some (f, n) } =
          ({ s with trajectory := some (f, n) }, none) := by
        simp only [tryAttribute, clampSlider, hs]
      have h2 := congrArg Prod.snd (updateFrame_keeps env { s with trajectory := some (f, n) })
      simp only at h2
      unfold andThen
      rw [h1]
      simp only
      rcases h3 : updateFrame env { s with trajectory := some (f, n) } with ⟨s1, _ | e⟩
      · rw [h3] at h2
        simp only [showName]
        rw [h2, hs]
      · rw [h3] at h2
        simp only
        rw [h2, hs]

theorem Consistent.index_nonneg {s : State} (h : Consistent s) : 0 ≤ s.index := by
  obtain ⟨f, n, _, _, _, i, _, h, _⟩ := h
  omega

theorem setIter_calm {s s' : State} {v : Str} (hi : 0 ≤ s.index)
    (h : setIter env v s = (s', none)) : Consistent s' ∨ s' = s := by
  unfold setIter at h
  split at h
  · simp only [Prod.mk.injEq, and_true] at h
    exact Or.inr h.symm
  · exact Or.inl (updateTrajectory_calm env (s := { s with iValue := v }) hi h)

theorem after_nonneg {s s' : State} (hi : 0 ≤ s.index) (h : Consistent s' ∨ s' = s) :
    0 ≤ s'.index := by
  rcases h with h | h
  · exact h.index_nonneg
  · rw [h]
    exact hi

theorem updateIndex_calm {s s' : State} (hi : 0 ≤ s.index)
    (h : updateIndex env s = (s', none)) : Consistent s' := by
  unfold updateIndex at h
  rcases h1 : s.byCrystal with e | d
  · rw [h1] at h
    simp at h
  · rw [h1] at h
    simp only at h
    rcases h2 : at' (sortedKeys d) 0 with e | i
    · rw [h2] at h
      simp at h
    · rw [h2] at h
      obtain ⟨s1, h3, h4⟩ := andThen_none h
      exact updateTrajectory_calm env (after_nonneg (s := { s with iters := sortedKeys d }) hi
        (setIter_calm env (s := { s with iters := sortedKeys d }) hi h3)) h4

theorem setCrystal_calm {s s' : State} {k : Nat} (hi : 0 ≤ s.index)
    (h : setCrystal env k s = (s', none)) : Consistent s' ∨ s' = s := by
  unfold setCrystal at h
  split at h
  · simp only [Prod.mk.injEq, and_true] at h
    exact Or.inr h.symm
  · exact Or.inl (updateIndex_calm env (s := { s with cActive := k }) hi h)

theorem updateCrystal_calm {s s' : State} (hi : 0 ≤ s.index)
    (h : updateCrystal env s = (s', none)) : Consistent s' := by
  unfold updateCrystal at h
  rcases h1 : s.byTemperature with e | d
  · rw [h1] at h
    simp at h
  · rw [h1] at h
    obtain ⟨s1, h3, h4⟩ := andThen_none h
    exact updateIndex_calm env (after_nonneg (s := { s with crystals := sortedKeys d }) hi
      (setCrystal_calm env (s := { s with crystals := sortedKeys d }) hi h3)) h4

theorem setTemperature_calm {s s' : State} {v : Str} (hi : 0 ≤ s.index)
    (h : setTemperature env v s = (s', none)) : Consistent s' ∨ s' = s := by
  unfold setTemperature at h
  split at h
  · simp only [Prod.mk.injEq, and_true] at h
    exact Or.inr h.symm
  · exact Or.inl (updateCrystal_calm env (s := { s with tValue := v }) hi h)

theorem updateTemperature_calm {s s' : State} (hi : 0 ≤ s.index)
    (h : updateTemperature env s = (s', none)) : Consistent s' := by
  unfold updateTemperature at h
  rcases h1 : s.byPressure with e | d
  · rw [h1] at h
    simp at h
  · rw [h1] at h
    simp only at h
    rcases h2 : at' (sortedKeys d) 0 with e | t
    · rw [h2] at h
      simp at h
    · rw [h2] at h
      obtain ⟨s1, h3, h4⟩ := andThen_none h
      exact updateCrystal_calm env (after_nonneg (s := { s with temps := sortedKeys d }) hi
        (setTemperature_calm env (s := { s with temps := sortedKeys d }) hi h3)) h4

theorem incrIndex_calm {s s' : State} (hc : Consistent s) (hk : 1 ≤ s.increment)
    (h : incrIndex env s = (s', none)) : Consistent s' := by
  have hi := hc.index_nonneg
  unfold incrIndex at h
  rcases h1 : s.slider with _ | sl
  · rw [h1] at h
    simp at h
  · rw [h1] at h
    simp only at h
    simp only [State.index, h1] at hi
    split at h
    · exact setSlider_calm env (le_min (by omega) (by omega)) hc h
    · simp only [Prod.mk.injEq, and_true] at h
      rw [← h]
      exact hc

theorem decrIndex_calm {s s' : State} (hc : Consistent s)
    (h : decrIndex env s = (s', none)) : Consistent s' := by
  unfold decrIndex at h
  rcases h1 : s.slider with _ | sl
  · rw [h1] at h
    simp at h
  · rw [h1] at h
    simp only at h
    split at h
    · exact setSlider_calm env (le_max_right _ _) hc h
    · simp only [Prod.mk.injEq, and_true] at h
      rw [← h]
      exact hc

theorem Calm.reachable {files : List Str} {timers : List Nat} {fresh : Nat} {s : State}
    (h : Calm env files timers fresh s) : Reachable env files timers fresh s := by
  induction h with
  | start s h => exact .start s h
  | step s e _ he _ ih => exact .step s e ih he

theorem handle_calm {s s' : State} (hc : Consistent s) (hk : 1 ≤ s.increment) (e : Event)
    (he : e.enabled s) (h : e.handle env s = (s', none)) : Consistent s' := by
  have hi := hc.index_nonneg
  cases e with
  | pressure i =>
    simp only [Event.handle] at h
    split at h
    · simp only [Prod.mk.injEq, and_true] at h
      rw [← h]
      exact hc
    · exact updateTemperature_calm env (s := { s with pActive := i }) hi h
  | temperature v =>
    rcases setTemperature_calm env hi h with h | h
    · exact h
    · rw [h]; exact hc
  | crystal i =>
    rcases setCrystal_calm env hi h with h | h
    · exact h
    · rw [h]; exact hc
  | iteration v =>
    rcases setIter_calm env hi h with h | h
    · exact h
    · rw [h]; exact hc
  | slide v =>
    obtain ⟨sl, _, h0, _⟩ := he
    exact setSlider_calm env h0 hc h
  | next => exact incrIndex_calm env hc hk h
  | tick => exact incrIndex_calm env hc hk h
  | previous => exact decrIndex_calm env hc h
  | increment k =>
    simp only [Event.handle, Prod.mk.injEq, and_true] at h
    rw [← h]
    exact hc
  | order k =>
    simp only [Event.handle] at h
    obtain ⟨f, n, i, e1, e2, rfl⟩ := updateFrame_none env h
    obtain ⟨f', n', g1, g2, g3, -⟩ := hc
    simp only at e1
    rw [g2] at e1
    cases e1
    obtain ⟨k1, k2⟩ := frameIndex_ok e2
    exact ⟨f, n, g1, g2, g3, i, k1, k2 hi, rfl⟩
  | playPause =>
    have hp := playPause_sel s
    have hf : (playPause s).1.filename = s.filename := by
      unfold playPause
      split
      · split
        · rfl
        · split <;> rfl
      · rfl
    simp only [Event.handle] at h
    rw [h] at hp hf
    simp only [Prod.mk.injEq] at hp hf
    obtain ⟨p1, p2, p3, p4, p5, p6⟩ := hp
    obtain ⟨f, n, g1, g2, g3, i, g4, g5, g6⟩ := hc
    refine ⟨f, n, by rw [selectedFile_congr p1]; exact g1, by rw [p2]; exact g2, by rw [hf]; exact g3,
      i, g4, ?_, by rw [p5, p6]; exact g6⟩
    rw [← g5]
    simp only [State.index, p3]

end Verif.Viewer
