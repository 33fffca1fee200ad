import Verif.Viewer.TitleSpec
import Verif.Viewer.StateLemmas
/-!
# Lemmas for C137
-/

namespace Verif.Viewer

variable (env : Env)

/-- What is plotted and its title. -/
def drawn (s : State) : Bool × Option (Str × Nat) × Option (Str × Nat) × Option ((Str × Nat) × Nat) :=
  (s.plot, s.title, s.frame, s.shown)

/-- A property of what is plotted. -/
structure Draws (ok : Prop) (I : State → Prop) : Prop where
  congr : ∀ s s', drawn s' = drawn s → I s → I s'
  frame : ∀ s, (ok → (updateFrame env s).2 = none) → I s → I (updateFrame env s).1

/-- A handler keeps `I`, as long as it raises no exception if `ok`. -/
def Safe (ok : Prop) (I : State → Prop) (h : Handler) : Prop :=
  ∀ s, (ok → (h s).2 = none) → I s → I (h s).1

theorem Safe.andThen {ok : Prop} {I : State → Prop} {a b : Handler} (ha : Safe ok I a)
    (hb : Safe ok I b) : Safe ok I (andThen a b) := by
  intro s hq hi
  unfold Viewer.andThen at hq ⊢
  rcases has : a s with ⟨s', _ | e⟩
  · rw [has] at hq
    have := ha s (fun _ => by rw [has]) hi
    rw [has] at this
    exact hb s' hq this
  · rw [has] at hq
    have := ha s (fun h => absurd (hq h) (by simp)) hi
    rw [has] at this
    exact this

variable {env} {ok : Prop} {I : State → Prop}

theorem setSlider_safe (d : Draws env ok I) (v : Int) : Safe ok I (setSlider env v) := by
  intro s hq hi
  unfold setSlider at hq ⊢
  rcases hs : s.slider with _ | sl
  · exact hi
  · rw [hs] at hq
    simp only at hq ⊢
    by_cases hv : sl.value = v
    · rw [if_pos hv]
      exact hi
    · rw [if_neg hv] at hq ⊢
      exact d.frame _ hq (d.congr s _ rfl hi)

theorem setEnd_safe (d : Draws env ok I) (v : Int) : Safe ok I (setEnd v) := by
  intro s hq hi
  unfold setEnd
  split
  · exact hi
  · exact d.congr s _ rfl hi

theorem clampSlider_safe (d : Draws env ok I) (n : Nat) : Safe ok I (clampSlider env n) := by
  intro s hq hi
  unfold clampSlider at hq ⊢
  rcases hs : s.slider with _ | sl
  · exact hi
  · rw [hs] at hq
    simp only at hq ⊢
    split
    · rename_i h
      rw [if_pos h] at hq
      exact (setSlider_safe d _).andThen (setEnd_safe d _) s hq hi
    · exact setEnd_safe d _ s (by rename_i h; rw [if_neg h] at hq; exact hq) hi

/-- The frame is drawn again once a file is open; an exception suppressed before does not matter,
if drawing restores `I`. -/
theorem updateTrajectory_safe (d : Draws env ok I)
    (hr : ok → ∀ s, s.plot = true → (updateFrame env s).2 = none → I (updateFrame env s).1)
    (hp : ∀ s, I s → s.plot = true)
    (hk : ∀ s, (updateFrame env s).1.plot = s.plot) :
    Safe ok I (updateTrajectory env) := by
  intro s hq hi
  unfold updateTrajectory at hq ⊢
  rcases h1 : s.selectedFile with e | f
  · exact hi
  · rw [h1] at hq
    simp only at hq ⊢
    rcases h2 : env.opens f with e | n
    · exact hi
    · rw [h2] at hq
      simp only at hq ⊢
      have hplot : ∀ s, (clampSlider env n s).1.plot = s.plot := by
        intro s
        have hset : ∀ v s, (setSlider env v s).1.plot = s.plot := by
          intro v s
          unfold setSlider
          split
          · rfl
          · split
            · rfl
            · rw [hk]
        have hend : ∀ v s, (setEnd v s).1.plot = s.plot := by
          intro v s
          unfold setEnd
          split <;> rfl
        unfold clampSlider
        split
        · rfl
        · split
          · unfold andThen
            rcases ha : setSlider env ((n : Int) - 1) s with ⟨s', _ | e⟩
            · simp only
              rw [hend, ← hset ((n : Int) - 1) s, ha]
            · simp only
              rw [← hset ((n : Int) - 1) s, ha]
          · exact hend _ _
      have htry : ∀ s, (tryAttribute (clampSlider env n) s).1 = (clampSlider env n s).1 := by
        intro s
        unfold tryAttribute
        rcases clampSlider env n s with ⟨s', _ | e⟩
        · rfl
        · cases e <;> rfl
      have hi' := d.congr s { s with trajectory := some (f, n) } rfl hi
      generalize { s with trajectory := some (f, n) } = s1 at hq hi' ⊢
      by_cases hok : ok
      · have hq := hq hok
        unfold andThen at hq ⊢
        have hpl : (tryAttribute (clampSlider env n) s1).1.plot = true := by
          rw [htry, hplot]
          exact hp _ hi'
        rcases hc : tryAttribute (clampSlider env n) s1 with ⟨s2, _ | e⟩
        · rw [hc] at hq hpl
          simp only at hq hpl ⊢
          rcases hf : updateFrame env s2 with ⟨s3, _ | e⟩
          · rw [hf] at hq
            have := hr hok s2 hpl (by rw [hf])
            rw [hf] at this
            exact d.congr s3 _ rfl this
          · rw [hf] at hq
            simp at hq
        · rw [hc] at hq
          simp at hq
      · refine Safe.andThen (ok := ok) (I := I) ?_ (Safe.andThen d.frame ?_) s1
          (fun h => absurd h hok) hi'
        · intro s _ hi
          rw [htry]
          exact clampSlider_safe d n s (fun h => absurd h hok) hi
        · intro s _ hi
          exact d.congr s _ rfl hi

theorem updateFrame_plot (s : State) : (updateFrame env s).1.plot = s.plot := by
  unfold updateFrame
  split
  · rfl
  · split
    · rfl
    · split
      · rfl
      · simp only [updateData]
        split <;> rfl

/-- Every handler keeps `I`. -/
theorem handle_safe (d : Draws env ok I)
    (hr : ok → ∀ s, s.plot = true → (updateFrame env s).2 = none → I (updateFrame env s).1)
    (hp : ∀ s, I s → s.plot = true) (e : Event) : Safe ok I (e.handle env) := by
  have hT : Safe ok I (updateTrajectory env) := updateTrajectory_safe d hr hp updateFrame_plot
  have hIt : ∀ v, Safe ok I (setIter env v) := by
    intro v s hq hi
    unfold setIter at hq ⊢
    by_cases h : s.iValue = v
    · rw [if_pos h]; exact hi
    · rw [if_neg h] at hq ⊢
      exact hT _ hq (d.congr s _ rfl hi)
  have hIx : Safe ok I (updateIndex env) := by
    intro s hq hi
    unfold updateIndex at hq ⊢
    rcases h1 : s.byCrystal with e | x
    · exact hi
    · rw [h1] at hq
      simp only at hq ⊢
      rcases h2 : at' (sortedKeys x) 0 with e | i
      · exact d.congr s _ rfl hi
      · rw [h2] at hq
        exact (hIt i).andThen hT _ hq (d.congr s _ rfl hi)
  have hCr : ∀ k, Safe ok I (setCrystal env k) := by
    intro k s hq hi
    unfold setCrystal at hq ⊢
    by_cases h : s.cActive = k
    · rw [if_pos h]; exact hi
    · rw [if_neg h] at hq ⊢
      exact hIx _ hq (d.congr s _ rfl hi)
  have hUc : Safe ok I (updateCrystal env) := by
    intro s hq hi
    unfold updateCrystal at hq ⊢
    rcases h1 : s.byTemperature with e | x
    · exact hi
    · rw [h1] at hq
      exact (hCr 0).andThen hIx _ hq (d.congr s _ rfl hi)
  have hTm : ∀ v, Safe ok I (setTemperature env v) := by
    intro v s hq hi
    unfold setTemperature at hq ⊢
    by_cases h : s.tValue = v
    · rw [if_pos h]; exact hi
    · rw [if_neg h] at hq ⊢
      exact hUc _ hq (d.congr s _ rfl hi)
  have hUt : Safe ok I (updateTemperature env) := by
    intro s hq hi
    unfold updateTemperature at hq ⊢
    rcases h1 : s.byPressure with e | x
    · exact hi
    · rw [h1] at hq
      simp only at hq ⊢
      rcases h2 : at' (sortedKeys x) 0 with e | i
      · exact d.congr s _ rfl hi
      · rw [h2] at hq
        exact (hTm i).andThen hUc _ hq (d.congr s _ rfl hi)
  have hIn : Safe ok I (incrIndex env) := by
    intro s hq hi
    unfold incrIndex at hq ⊢
    rcases h1 : s.slider with _ | sl
    · exact hi
    · rw [h1] at hq
      simp only at hq ⊢
      by_cases h : sl.value < sl.finish
      · rw [if_pos h] at hq ⊢
        exact setSlider_safe d _ s hq hi
      · rw [if_neg h]; exact hi
  cases e with
  | pressure i =>
    intro s hq hi
    simp only [Event.handle] at hq ⊢
    by_cases h : s.pActive = i
    · rw [if_pos h]; exact hi
    · rw [if_neg h] at hq ⊢
      exact hUt _ hq (d.congr s _ rfl hi)
  | temperature v => exact hTm v
  | crystal i => exact hCr i
  | iteration v => exact hIt v
  | slide v => exact setSlider_safe d v
  | next => exact hIn
  | previous =>
    intro s hq hi
    simp only [Event.handle, decrIndex] at hq ⊢
    rcases h1 : s.slider with _ | sl
    · exact hi
    · rw [h1] at hq
      simp only at hq ⊢
      by_cases h : sl.value > 0
      · rw [if_pos h] at hq ⊢
        exact setSlider_safe d _ s hq hi
      · rw [if_neg h]; exact hi
  | tick => exact hIn
  | increment k => exact fun s _ hi => d.congr s _ rfl hi
  | order k => exact fun s hq hi => d.frame _ hq (d.congr s _ rfl hi)
  | playPause =>
    intro s _ hi
    simp only [Event.handle, playPause]
    split
    · split
      · exact hi
      · split
        · exact d.congr s _ rfl hi
        · exact hi
    · exact d.congr s _ rfl hi

/-- The title is that of the frame the page holds. -/
def Titled (s : State) : Prop := s.plot = true ∧ s.title = s.frame

/-- The title is that of the frame the page holds, which is the one plotted. -/
def Drawn (s : State) : Prop :=
  s.plot = true ∧ ∃ f i k, s.frame = some (f, i) ∧ s.shown = some ((f, i), k) ∧ s.title = some (f, i)

theorem Drawn.titleOfPlot {s : State} (h : Drawn s) : TitleOfPlot s := by
  obtain ⟨-, f, i, k, -, h2, h3⟩ := h
  exact ⟨f, i, k, h2, h3⟩

/-- Reading a frame: either nothing changes, or the frame is replaced. -/
theorem updateFrame_cases (s : State) : (∃ e, updateFrame env s = (s, some e)) ∨
    ∃ f i, updateFrame env s = updateData env { s with frame := some (f, i) } := by
  unfold updateFrame
  split
  · exact Or.inl ⟨_, rfl⟩
  · split
    · exact Or.inl ⟨_, rfl⟩
    · split
      · exact Or.inl ⟨_, rfl⟩
      · exact Or.inr ⟨_, _, rfl⟩

theorem titled_draws : Draws env False Titled where
  congr s s' h hi := by
    simp only [drawn, Prod.mk.injEq] at h
    exact ⟨h.1.trans hi.1, h.2.1.trans (hi.2.trans h.2.2.1.symm)⟩
  frame s _ hi := by
    rcases updateFrame_cases (env := env) s with ⟨e, h⟩ | ⟨f, i, h⟩
    · rw [h]; exact hi
    · rw [h]
      simp only [updateData]
      split
      · exact ⟨hi.1, by simp only [hi.1, if_true]⟩
      · exact ⟨hi.1, by simp only [hi.1, if_true]⟩

theorem drawn_congr (s s' : State) (h : drawn s' = drawn s) (hi : Drawn s) : Drawn s' := by
  simp only [drawn, Prod.mk.injEq] at h
  obtain ⟨h1, f, i, k, h2, h3, h4⟩ := hi
  exact ⟨h.1.trans h1, f, i, k, h.2.2.1.trans h2, h.2.2.2.trans h3, h.2.1.trans h4⟩

theorem drawn_quiet (s : State) (hp : s.plot = true) (h : (updateFrame env s).2 = none) :
    Drawn (updateFrame env s).1 := by
  rcases updateFrame_cases (env := env) s with ⟨e, h'⟩ | ⟨f, i, h'⟩
  · rw [h'] at h
    cases h
  · rw [h'] at h ⊢
    simp only [updateData] at h ⊢
    split at h
    · cases h
    · exact ⟨hp, f, i, s.oActive, rfl, rfl, by simp only [hp, if_true]⟩

theorem drawn_draws_quiet : Draws env True Drawn where
  congr := drawn_congr
  frame s hq hi := drawn_quiet s hi.1 (hq trivial)

theorem drawn_draws_data (hd : ∀ f i k, env.dataErr f i k = none) : Draws env False Drawn where
  congr := drawn_congr
  frame s _ hi := by
    rcases updateFrame_cases (env := env) s with ⟨e, h'⟩ | ⟨f, i, h'⟩
    · rw [h']; exact hi
    · rw [h']
      simp only [updateData, hd]
      exact ⟨hi.1, f, i, s.oActive, rfl, rfl, by simp only [hi.1, if_true]⟩

/-- A file just opened without an exception: the frame held is the one plotted. -/
theorem updateTrajectory_plotted {s s' : State} (h : updateTrajectory env s = (s', none)) :
    ∃ f i k, s'.frame = some (f, i) ∧ s'.shown = some ((f, i), k) ∧ s'.oActive = k ∧
      env.dataErr f i k = none := by
  unfold updateTrajectory at h
  rcases h1 : s.selectedFile with e | f
  · rw [h1] at h; cases h
  · rw [h1] at h
    simp only at h
    rcases h2 : env.opens f with e | n
    · rw [h2] at h; cases h
    · rw [h2] at h
      simp only [andThen] at h
      rcases hc : tryAttribute (clampSlider env n) { s with trajectory := some (f, n) } with
        ⟨s2, _ | e⟩
      · rw [hc] at h
        simp only at h
        rcases hf : updateFrame env s2 with ⟨s3, _ | e⟩
        · rw [hf] at h
          simp only [showName, Prod.mk.injEq, and_true] at h
          subst h
          rcases updateFrame_cases (env := env) s2 with ⟨e, h'⟩ | ⟨g, i, h'⟩
          · rw [h'] at hf; cases hf
          · rw [h'] at hf
            simp only [updateData] at hf
            split at hf
            · cases hf
            · rename_i hd
              simp only [Prod.mk.injEq, and_true] at hf
              subst hf
              exact ⟨g, i, s2.oActive, rfl, rfl, rfl, hd⟩
        · rw [hf] at h; cases h
      · rw [hc] at h; cases h

/-- The page as made. -/
theorem makeDocument_drawn {files : List Str} {timers : List Nat} {fresh : Nat} {s : State}
    (h : makeDocument env files timers fresh = .ok s) : Drawn s := by
  unfold makeDocument at h
  rcases hc : create env files timers fresh with e | s0
  · rw [hc] at h; cases h
  · rw [hc] at h
    simp only at h
    obtain ⟨tree, s1, f, n, -, -, -, -, -, -, -, -, h6, rfl⟩ := create_inv env hc
    obtain ⟨g, i, -, hfr, -⟩ := updateTrajectory_plotted h6
    generalize (updateTrajectory env s1).1 = s2 at h hfr
    have hfr' : (initDoc (initMedia s2)).frame = some (g, i) := hfr
    have hpl : (initDoc (initMedia s2)).plot = true := rfl
    generalize initDoc (initMedia s2) = s3 at h hfr' hpl
    simp only [createDoc, andThen, updateData, hfr'] at h
    rcases hd : env.dataErr g i s3.oActive with _ | e
    · rw [hd] at h
      simp only [createFiles] at h
      split at h
      · cases h
      · rename_i h'
        split at h'
        · cases h'
        · simp only [Prod.mk.injEq, and_true] at h'
          cases h
          subst h'
          exact ⟨hpl, g, i, s3.oActive, rfl, rfl, by simp only [hpl, if_true]⟩
    · rw [hd] at h
      cases h

end Verif.Viewer
