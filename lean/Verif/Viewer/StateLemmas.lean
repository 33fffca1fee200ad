import Verif.Viewer.Lemmas
/-!
# Lemmas on the viewer: timers, slider, construction
-/

namespace Verif.Viewer

open Verif.Names (Tree parseDirectory Under)

variable (env : Env)

/-! ### Increment and classification algorithm -/

theorem updateData_other : Keeps (fun s => (s.increment, s.oActive)) (updateData env) := by
  intro s
  unfold updateData
  split
  · rfl
  · split <;> rfl

theorem updateFrame_other : Keeps (fun s => (s.increment, s.oActive)) (updateFrame env) := by
  intro s
  unfold updateFrame
  split
  · rfl
  · split
    · rfl
    · split
      · rfl
      · rename_i f n _ _ i _ _ _
        exact updateData_other env { s with frame := some (f, i) }

theorem setSlider_other (v : Int) : Keeps (fun s => (s.increment, s.oActive)) (setSlider env v) := by
  intro s
  unfold setSlider
  split
  · rfl
  · split
    · rfl
    · rename_i sl _ _
      exact updateFrame_other env { s with slider := some { sl with value := v } }

theorem setEnd_other (v : Int) : Keeps (fun s => (s.increment, s.oActive)) (setEnd v) := by
  intro s
  unfold setEnd
  split <;> rfl

theorem clampSlider_other (n : Nat) :
    Keeps (fun s => (s.increment, s.oActive)) (clampSlider env n) := by
  intro s
  unfold clampSlider
  split
  · rfl
  · split
    · exact (setSlider_other env _).andThen (setEnd_other _) s
    · exact setEnd_other _ s

theorem updateTrajectory_other :
    Keeps (fun s => (s.increment, s.oActive)) (updateTrajectory env) := by
  intro s
  unfold updateTrajectory
  split
  · rfl
  · split
    · rfl
    · rename_i f _ _ n _
      exact ((clampSlider_other env n).tryAttribute).andThen
        ((updateFrame_other env).andThen (fun _ => rfl)) { s with trajectory := some (f, n) }

/-! ### What selecting a file leaves alone -/

/-- The fields that selecting a file leaves alone. -/
def fixed (s : State) := (s.tree, tim s, s.increment)

theorem updateTrajectory_fixed : Keeps fixed (updateTrajectory env) := by
  intro s
  have h1 := updateTrajectory_keeps env s
  have h2 := updateTrajectory_other env s
  simp only [sel, Prod.mk.injEq] at h1 h2
  simp only [fixed, Prod.mk.injEq]
  exact ⟨h1.1.1, h1.2, h2.1⟩

theorem setIter_fixed (v : Str) : Keeps fixed (setIter env v) := by
  intro s
  unfold setIter
  split
  · rfl
  · exact updateTrajectory_fixed env { s with iValue := v }

theorem updateIndex_fixed : Keeps fixed (updateIndex env) := by
  intro s
  unfold updateIndex
  split
  · rfl
  · split
    · rfl
    · rename_i d _ _ i _
      exact (setIter_fixed env i).andThen (updateTrajectory_fixed env)
        { s with iters := sortedKeys d }

theorem setCrystal_fixed (k : Nat) : Keeps fixed (setCrystal env k) := by
  intro s
  unfold setCrystal
  split
  · rfl
  · exact updateIndex_fixed env { s with cActive := k }

theorem updateCrystal_fixed : Keeps fixed (updateCrystal env) := by
  intro s
  unfold updateCrystal
  split
  · rfl
  · rename_i d _
    exact (setCrystal_fixed env 0).andThen (updateIndex_fixed env) { s with crystals := sortedKeys d }

theorem setTemperature_fixed (v : Str) : Keeps fixed (setTemperature env v) := by
  intro s
  unfold setTemperature
  split
  · rfl
  · exact updateCrystal_fixed env { s with tValue := v }

theorem updateTemperature_fixed : Keeps fixed (updateTemperature env) := by
  intro s
  unfold updateTemperature
  split
  · rfl
  · split
    · rfl
    · rename_i d _ _ t _
      exact (setTemperature_fixed env t).andThen (updateCrystal_fixed env)
        { s with temps := sortedKeys d }

theorem core_sel {s s' : State} (h : core s = core s') : sel s = sel s' := congrArg Prod.fst h

theorem core_tim {s s' : State} (h : core s = core s') : tim s = tim s' :=
  congrArg (fun x => x.2.1) h

theorem core_trajectory {s s' : State} (h : core s = core s') : s.trajectory = s'.trajectory :=
  congrArg (fun x => x.2.2) h

theorem incrIndex_keeps : Keeps core (incrIndex env) := by
  intro s
  unfold incrIndex
  split
  · rfl
  · split
    · exact setSlider_keeps env _ s
    · rfl

theorem decrIndex_keeps : Keeps core (decrIndex env) := by
  intro s
  unfold decrIndex
  split
  · rfl
  · split
    · exact setSlider_keeps env _ s
    · rfl

/-- The events that neither select a file nor start or stop the timer. -/
theorem view_keeps (e : Event) (h1 : ¬ e.selects) (h2 : e ≠ .playPause) :
    Keeps core (e.handle env) := by
  cases e with
  | pressure _ => simp [Event.selects] at h1
  | temperature _ => simp [Event.selects] at h1
  | crystal _ => simp [Event.selects] at h1
  | iteration _ => simp [Event.selects] at h1
  | slide v => exact setSlider_keeps env v
  | next => exact incrIndex_keeps env
  | previous => exact decrIndex_keeps env
  | tick => exact incrIndex_keeps env
  | increment k => exact fun _ => rfl
  | order k => exact fun s => updateFrame_keeps_core env { s with oActive := k }
  | playPause => exact absurd rfl h2

theorem tim_keeps (e : Event) (h : e ≠ .playPause) : Keeps tim (e.handle env) := by
  by_cases hs : e.selects
  · cases e with
    | pressure i =>
      intro s
      simp only [Event.handle]
      split
      · rfl
      · exact congrArg (fun x => x.2.1) (updateTemperature_fixed env { s with pActive := i })
    | temperature v => exact fun s => congrArg (fun x => x.2.1) (setTemperature_fixed env v s)
    | crystal i => exact fun s => congrArg (fun x => x.2.1) (setCrystal_fixed env i s)
    | iteration v => exact fun s => congrArg (fun x => x.2.1) (setIter_fixed env v s)
    | slide _ => simp [Event.selects] at hs
    | next => simp [Event.selects] at hs
    | previous => simp [Event.selects] at hs
    | tick => simp [Event.selects] at hs
    | increment _ => simp [Event.selects] at hs
    | order _ => simp [Event.selects] at hs
    | playPause => simp [Event.selects] at hs
  · exact fun s => core_tim (view_keeps env e hs h s)

theorem playPause_sel : Keeps (fun s => (sel s, s.trajectory, s.slider, s.frame, s.shown, s.oActive))
    playPause := by
  intro s
  unfold playPause
  split
  · split
    · rfl
    · split <;> rfl
  · rfl

/-! ### The slider -/

/-- The slider is at a frame of the open trajectory or one beyond the last; at a frame, that is the
one shown. -/
def Placed (s : State) : Prop :=
  ∃ f n v e, s.trajectory = some (f, n) ∧ 0 < n ∧ s.slider = some ⟨v, e⟩ ∧ 0 ≤ v ∧ v ≤ n ∧
    (n : Int) - 1 ≤ e ∧ e ≤ n ∧
    (v < n → s.frame = some (f, v.toNat) ∧ s.shown = some ((f, v.toNat), s.oActive))

theorem updateFrame_ok {s : State} {f : Str} {n : Nat} (hr : AllRead env)
    (h1 : s.trajectory = some (f, n)) (h2 : 0 ≤ s.index) (h3 : s.index < n) :
    updateFrame env s = ({ s with frame := some (f, s.index.toNat),
                                  title := if s.plot then some (f, s.index.toNat) else s.title,
                                  shown := some ((f, s.index.toNat), s.oActive) }, none) := by
  unfold updateFrame
  rw [h1]
  simp only [frameIndex]
  rw [if_pos h2, if_pos h3]
  simp only [hr.1, updateData, hr.2]

theorem updateFrame_out {s : State} {f : Str} {n : Nat}
    (h1 : s.trajectory = some (f, n)) (h2 : 0 ≤ s.index) (h3 : ¬ s.index < n) :
    updateFrame env s = (s, some .indexError) := by
  unfold updateFrame
  rw [h1]
  simp only [frameIndex]
  rw [if_pos h2, if_neg h3]

/-- Moving the slider to a place in its range. -/
theorem setSlider_placed {s : State} (hr : AllRead env) (h : Placed s) (v' : Int) (h0 : 0 ≤ v')
    (h1 : ∀ sl, s.slider = some sl → v' ≤ sl.finish) : Placed (setSlider env v' s).1 := by
  have hs := h
  obtain ⟨f, n, v, e, ht, hn, hsl, hv0, hv1, he0, he1, hf⟩ := h
  have hle := h1 _ hsl
  simp only at hle
  unfold setSlider
  rw [hsl]
  simp only
  split
  · exact hs
  · by_cases hlt : v' < n
    · rw [updateFrame_ok env hr (s := { s with slider := some ⟨v', e⟩ }) ht h0 hlt]
      exact ⟨f, n, v', e, ht, hn, rfl, h0, by omega, he0, he1, fun _ => ⟨rfl, rfl⟩⟩
    · rw [updateFrame_out env (s := { s with slider := some ⟨v', e⟩ }) ht h0 hlt]
      exact ⟨f, n, v', e, ht, hn, rfl, h0, by omega, he0, he1, fun h => absurd h hlt⟩

/-- After a file is opened. -/
theorem updateTrajectory_placed {s : State} {f : Str} (hr : AllRead env) (ho : AllOpen env)
    (h : Full s f) {sl : Slider} (hs : s.slider = some sl) (h0 : 0 ≤ sl.value) :
    Placed (updateTrajectory env s).1 ∧ EndsAtLast (updateTrajectory env s).1 := by
  obtain ⟨n, hn, hpos⟩ := ho f
  unfold updateTrajectory
  rw [selectedFile_ok h]
  simp only [hn]
  obtain ⟨v, e⟩ := sl
  simp only at h0
  by_cases hv : v > n
  · have hset : setSlider env ((n : Int) - 1)
          { s with trajectory := some (f, n), slider := some ⟨v, e⟩ } =
        ({ s with trajectory := some (f, n), slider := some ⟨(n : Int) - 1, e⟩,
                  frame := some (f, ((n : Int) - 1).toNat),
                  title := if s.plot then some (f, ((n : Int) - 1).toNat) else s.title,
                  shown := some ((f, ((n : Int) - 1).toNat), s.oActive) }, none) := by
      unfold setSlider
      simp only
      rw [if_neg (by omega)]
      rw [updateFrame_ok env hr (f := f) (n := n)
        (s := { s with trajectory := some (f, n), slider := some ⟨(n : Int) - 1, e⟩ }) rfl
        (by simp only [State.index]; omega) (by simp only [State.index]; omega)]
      rfl
    have hcl : tryAttribute (clampSlider env n) { s with trajectory := some (f, n) } =
        ({ s with trajectory := some (f, n), slider := some ⟨(n : Int) - 1, (n : Int) - 1⟩,
                  frame := some (f, ((n : Int) - 1).toNat),
                  title := if s.plot then some (f, ((n : Int) - 1).toNat) else s.title,
                  shown := some ((f, ((n : Int) - 1).toNat), s.oActive) }, none) := by
      unfold tryAttribute clampSlider
      simp only [hs]
      rw [if_pos hv]
      unfold andThen
      rw [hset]
      rfl
    unfold andThen
    rw [hcl]
    simp only
    rw [updateFrame_ok env hr (f := f) (n := n) rfl (by simp only [State.index]; omega)
      (by simp only [State.index]; omega)]
    exact ⟨⟨f, n, (n : Int) - 1, (n : Int) - 1, rfl, hpos, rfl, by omega, by omega, by omega, by omega,
      fun _ => ⟨rfl, rfl⟩⟩, f, n, _, rfl, rfl, rfl⟩
  · have hcl : tryAttribute (clampSlider env n) { s with trajectory := some (f, n) } =
        ({ s with trajectory := some (f, n), slider := some ⟨v, (n : Int) - 1⟩ }, none) := by
      unfold tryAttribute clampSlider
      simp only [hs]
      rw [if_neg hv]
      unfold setEnd
      simp only
    unfold andThen
    rw [hcl]
    simp only
    by_cases hlt : v < n
    · rw [updateFrame_ok env hr (f := f) (n := n)
        (s := { s with trajectory := some (f, n), slider := some ⟨v, (n : Int) - 1⟩ }) rfl h0 hlt]
      exact ⟨⟨f, n, v, (n : Int) - 1, rfl, hpos, rfl, h0, by omega, by omega, by omega,
        fun _ => ⟨rfl, rfl⟩⟩, f, n, _, rfl, rfl, rfl⟩
    · rw [updateFrame_out env (f := f) (n := n)
        (s := { s with trajectory := some (f, n), slider := some ⟨v, (n : Int) - 1⟩ }) rfl h0 hlt]
      exact ⟨⟨f, n, v, (n : Int) - 1, rfl, hpos, rfl, h0, by omega, by omega, by omega,
        fun h => absurd h hlt⟩, f, n, _, rfl, rfl, rfl⟩

theorem incrIndex_placed {s : State} (hr : AllRead env) (h : Placed s) (hi : 1 ≤ s.increment) :
    Placed (incrIndex env s).1 := by
  have hs := h
  obtain ⟨f, n, v, e, ht, hn, hsl, hv0, hv1, he0, he1, hf⟩ := h
  unfold incrIndex
  rw [hsl]
  simp only
  split
  · refine setSlider_placed env hr hs _ (by omega) ?_
    intro sl h
    rw [hsl] at h
    cases h
    exact min_le_right _ _
  · exact hs

theorem decrIndex_placed {s : State} (hr : AllRead env) (h : Placed s) (hi : 1 ≤ s.increment) :
    Placed (decrIndex env s).1 := by
  have hs := h
  obtain ⟨f, n, v, e, ht, hn, hsl, hv0, hv1, he0, he1, hf⟩ := h
  unfold decrIndex
  rw [hsl]
  simp only
  split
  · refine setSlider_placed env hr hs _ (by omega) ?_
    intro sl h
    rw [hsl] at h
    cases h
    exact max_le (by simp only; omega) (by simp only; omega)
  · exact hs

/-! ### Construction -/

theorem initDirectory_full {tree : Tree} (hw : WF tree) (hne : tree ≠ []) (timers : List Nat)
    (fresh : Nat) : ∃ s f, initDirectory tree timers fresh = .ok s ∧ Full s f ∧
      s.slider = none ∧ s.playing = false ∧ s.timers = timers ∧ s.fresh = fresh ∧
      s.increment = 10 ∧ s.tree = tree ∧ s.oActive = 0 := by
  obtain ⟨p, d1, h1, h2, h3⟩ := sortedKeys_first tree hne
  obtain ⟨hd1, hw1⟩ := hw p d1 h3
  obtain ⟨t, d2, h4, h5, h6⟩ := sortedKeys_first d1 hd1
  obtain ⟨hd2, hw2⟩ := hw1 t d2 h6
  obtain ⟨c, d3, h7, h8, h9⟩ := sortedKeys_first d2 hd2
  obtain ⟨i, f, h10, h11, h12⟩ := sortedKeys_first d3 (hw2 c d3 h9)
  refine ⟨blank tree (sortedKeys tree) (sortedKeys d1) (sortedKeys d2) (sortedKeys d3) t i timers
    fresh, f, ?_, ?_, ?_⟩
  · unfold initDirectory
    simp only [h1, key_ok _ _ _ h3, h4, key_ok _ _ _ h6, h7, key_ok _ _ _ h9, h10]
  · exact ⟨p, d1, d2, c, d3, ⟨hw, rfl, h2, h3⟩, ⟨rfl, h6⟩, ⟨rfl, h8, h9⟩, ⟨rfl, h12⟩⟩
  · exact ⟨rfl, rfl, rfl, rfl, rfl, rfl, rfl⟩

/-- The result of `initDirectory`, whenever there is one. -/
theorem initDirectory_inv {tree : Tree} (hw : WF tree) {timers : List Nat} {fresh : Nat} {s : State}
    (h : initDirectory tree timers fresh = .ok s) : ∃ f, Full s f ∧
      s.slider = none ∧ s.playing = false ∧ s.timers = timers ∧ s.fresh = fresh ∧
      s.increment = 10 ∧ s.tree = tree ∧ s.oActive = 0 := by
  by_cases hne : tree = []
  · subst hne
    unfold initDirectory at h
    simp [sortedKeys, at'] at h
  · obtain ⟨s', f, h1, h2⟩ := initDirectory_full hw hne timers fresh
    rw [h1] at h
    cases h
    exact ⟨f, h2⟩


/-! ### All events -/

theorem selects_fixed (e : Event) (h : e.selects) : Keeps fixed (e.handle env) := by
  cases e with
  | pressure i =>
    intro s
    simp only [Event.handle]
    split
    · rfl
    · exact updateTemperature_fixed env { s with pActive := i }
  | temperature v => exact setTemperature_fixed env v
  | crystal i => exact setCrystal_fixed env i
  | iteration v => exact setIter_fixed env v
  | slide _ => simp [Event.selects] at h
  | next => simp [Event.selects] at h
  | previous => simp [Event.selects] at h
  | tick => simp [Event.selects] at h
  | increment _ => simp [Event.selects] at h
  | order _ => simp [Event.selects] at h
  | playPause => simp [Event.selects] at h

theorem other_sel (e : Event) (h : ¬ e.selects) :
    Keeps (fun s => (sel s, s.trajectory)) (e.handle env) := by
  by_cases hp : e = .playPause
  · subst hp
    intro s
    have := playPause_sel s
    simp only [Prod.mk.injEq] at this
    exact Prod.ext this.1 this.2.1
  · intro s
    have := view_keeps env e h hp s
    exact Prod.ext (core_sel this) (core_trajectory this)

theorem tree_keeps (e : Event) : Keeps State.tree (e.handle env) := by
  intro s
  by_cases h : e.selects
  · exact congrArg Prod.fst (selects_fixed env e h s)
  · exact congrArg (fun x => x.1.1) (other_sel env e h s)

theorem increment_pos (e : Event) (s : State) (he : e.enabled s) (h : 1 ≤ s.increment) :
    1 ≤ (e.handle env s).1.increment := by
  by_cases hs : e.selects
  · have := congrArg (fun x => x.2.2) (selects_fixed env e hs s)
    simp only [fixed] at this
    omega
  · cases e with
    | pressure i => simp [Event.selects] at hs
    | temperature v => simp [Event.selects] at hs
    | crystal i => simp [Event.selects] at hs
    | iteration v => simp [Event.selects] at hs
    | slide v =>
      have := congrArg Prod.fst (setSlider_other env v s)
      simp only at this
      simp only [Event.handle]
      omega
    | next =>
      simp only [Event.handle, incrIndex]
      split
      · exact h
      · split
        · rename_i sl _ _
          have := congrArg Prod.fst (setSlider_other env (min (sl.value + s.increment) sl.finish) s)
          simp only at this
          omega
        · exact h
    | tick =>
      simp only [Event.handle, incrIndex]
      split
      · exact h
      · split
        · rename_i sl _ _
          have := congrArg Prod.fst (setSlider_other env (min (sl.value + s.increment) sl.finish) s)
          simp only at this
          omega
        · exact h
    | previous =>
      simp only [Event.handle, decrIndex]
      split
      · exact h
      · split
        · rename_i sl _ _
          have := congrArg Prod.fst (setSlider_other env (max (sl.value - s.increment) 0) s)
          simp only at this
          omega
        · exact h
    | increment k =>
      simp only [Event.enabled] at he
      exact he.1
    | order k =>
      have := congrArg Prod.fst (updateFrame_other env { s with oActive := k })
      simp only at this
      simp only [Event.handle]
      omega
    | playPause =>
      simp only [Event.handle, playPause]
      split
      · split
        · exact h
        · split <;> exact h
      · exact h

/-! ### Invariants of the reachable states -/

/-- What `create` gives. -/
theorem create_inv {files : List Str} {timers : List Nat} {fresh : Nat} {s : State}
    (h : create env files timers fresh = .ok s) : ∃ tree s0 f n, parseDirectory files = .ok tree ∧
      Full s0 f ∧ s0.slider = none ∧ fixed s0 = (tree, tim s0, 10) ∧
      s0.playing = false ∧ s0.timers = timers ∧ s0.fresh = fresh ∧
      env.opens f = .ok n ∧ updateTrajectory env s0 = ((updateTrajectory env s0).1, none) ∧
      s = initDoc (initMedia (updateTrajectory env s0).1) := by
  unfold create at h
  cases hp : parseDirectory files with
  | error e => rw [hp] at h; cases h
  | ok tree =>
    rw [hp] at h
    simp only at h
    cases hi : initDirectory tree timers fresh with
    | error e => rw [hi] at h; cases h
    | ok s0 =>
      rw [hi] at h
      simp only at h
      obtain ⟨f, h1, h2, h3, h4, h5, h6, h7, h8⟩ := initDirectory_inv (parseDirectory_wf hp) hi
      have ho : ∃ n, env.opens f = .ok n := by
        cases hn : env.opens f with
        | ok n => exact ⟨n, rfl⟩
        | error e =>
          have : updateTrajectory env s0 = (s0, some e) := by
            unfold updateTrajectory
            rw [selectedFile_ok h1]
            simp only [hn]
          rw [this] at h
          cases h
      obtain ⟨n, hn⟩ := ho
      refine ⟨tree, s0, f, n, rfl, h1, h2, ?_, h3, h4, h5, hn, ?_⟩
      · simp only [fixed, h7, h6]
      · rcases hu : updateTrajectory env s0 with ⟨s', _ | e⟩
        · rw [hu] at h
          cases h
          exact ⟨rfl, rfl⟩
        · rw [hu] at h
          cases h

theorem initMedia_sel (s : State) : sel (initDoc (initMedia s)) = sel s := rfl

/-- The selection in a reachable state. -/
theorem reachable_good {files : List Str} {timers : List Nat} {fresh : Nat} {s : State}
    (h : Reachable env files timers fresh s) :
    Good env s ∧ parseDirectory files = .ok s.tree := by
  induction h with
  | start s h =>
    obtain ⟨tree, s0, f, n, h1, h2, h3, h4, -, -, -, h5, h6, rfl⟩ := create_inv env h
    obtain ⟨g, hg, ht⟩ := updateTrajectory_good env h2
    refine ⟨⟨g, hg.congr (initMedia_sel _), ht⟩, ?_⟩
    have := congrArg Prod.fst (updateTrajectory_fixed env s0)
    have h4' := congrArg Prod.fst h4
    simp only [fixed] at this h4'
    simp only [initDoc, initMedia]
    rw [this, h4']
    exact h1
  | step s e h he ih =>
    obtain ⟨ih, htr⟩ := ih
    refine ⟨?_, by rw [tree_keeps env e s]; exact htr⟩
    by_cases hs : e.selects
    · have hg := ih
      obtain ⟨f, hf, -⟩ := ih
      rcases selects_prop env (Good env) (fun _ => True)
        (fun s f hf _ => updateTrajectory_good env hf) (fun _ _ => trivial) hf trivial e hs he with
        h1 | h1
      · rw [h1]
        exact hg
      · exact h1.1
    · obtain ⟨f, hf, ht⟩ := ih
      have := other_sel env e hs s
      simp only [Prod.mk.injEq] at this
      refine ⟨f, hf.congr this.1, ?_⟩
      rw [this.2]
      exact ht

/-- The increment in a reachable state. -/
theorem reachable_increment {files : List Str} {timers : List Nat} {fresh : Nat} {s : State}
    (h : Reachable env files timers fresh s) : 1 ≤ s.increment := by
  induction h with
  | start s h =>
    obtain ⟨tree, s0, f, n, h1, h2, h3, h4, -, -, -, h5, h6, rfl⟩ := create_inv env h
    have h7 := congrArg (fun x => x.2.2) (updateTrajectory_fixed env s0)
    have h4' := congrArg (fun x => x.2.2) h4
    simp only [fixed] at h7 h4'
    simp only [initDoc, initMedia]
    omega
  | step s e h he ih => exact increment_pos env e s he ih

theorem updateTrajectory_fresh {s : State} {f : Str} {n : Nat} (hr : AllRead env)
    (h : Full s f) (hs : s.slider = none) (hn : env.opens f = .ok n) (h0 : 0 < n) :
    updateTrajectory env s = ({ s with trajectory := some (f, n), frame := some (f, 0),
                                       title := if s.plot then some (f, 0) else s.title,
                                       shown := some ((f, 0), s.oActive), filename := some f },
                              none) := by
  unfold updateTrajectory
  rw [selectedFile_ok h]
  simp only [hn]
  have hcl : tryAttribute (clampSlider env n) { s with trajectory := some (f, n) } =
      ({ s with trajectory := some (f, n) }, none) := by
    unfold tryAttribute clampSlider
    simp only [hs]
  unfold andThen
  rw [hcl]
  simp only
  rw [updateFrame_ok env hr (f := f) (n := n) (s := { s with trajectory := some (f, n) }) rfl
    (by simp only [State.index, hs]; omega) (by simp only [State.index, hs]; omega)]
  simp only [State.index, hs, showName]
  rfl

/-- The slider in a reachable state. -/
theorem reachable_placed {files : List Str} {timers : List Nat} {fresh : Nat} {s : State}
    (ho : AllOpen env) (hr : AllRead env)
    (h : Reachable env files timers fresh s) : Placed s := by
  induction h with
  | start s h =>
    obtain ⟨tree, s0, f, n, h1, h2, h3, h4, -, -, -, h5, h6, rfl⟩ := create_inv env h
    obtain ⟨n', hn', hpos⟩ := ho f
    rw [h5] at hn'
    cases hn'
    rw [updateTrajectory_fresh env hr h2 h3 h5 hpos]
    refine ⟨f, n, 0, max (n : Int) 1, rfl, hpos, ?_, le_refl _, by omega, ?_, ?_, fun _ => ⟨rfl, rfl⟩⟩
    · simp only [initDoc, initMedia, Option.map_some, Option.getD_some]
    · exact le_max_of_le_left (by omega)
    · exact max_le (le_refl _) (by omega)
  | step s e h he ih =>
    have hinc := reachable_increment env h
    by_cases hs : e.selects
    · obtain ⟨⟨f, hf, -⟩, -⟩ := reachable_good env h
      rcases selects_prop env Placed (fun o => ∃ sl, o = some sl ∧ 0 ≤ sl.value)
        (fun s f hf ⟨sl, h1, h2⟩ => (updateTrajectory_placed env hr ho hf h1 h2).1)
        (fun s ⟨f, n, v, e, _, _, hsl, hv, _⟩ => ⟨_, hsl, hv⟩) hf
        (by obtain ⟨f, n, v, e, _, _, hsl, hv, _⟩ := ih; exact ⟨_, hsl, hv⟩) e hs he with h1 | h1
      · rw [h1]
        exact ih
      · exact h1.1
    · cases e with
      | pressure i => simp [Event.selects] at hs
      | temperature v => simp [Event.selects] at hs
      | crystal i => simp [Event.selects] at hs
      | iteration v => simp [Event.selects] at hs
      | slide v =>
        obtain ⟨sl, h1, h2, h3⟩ := he
        refine setSlider_placed env hr ih v h2 ?_
        intro sl' h'
        rw [h1] at h'
        cases h'
        exact h3
      | next => exact incrIndex_placed env hr ih hinc
      | tick => exact incrIndex_placed env hr ih hinc
      | previous => exact decrIndex_placed env hr ih hinc
      | increment k =>
        obtain ⟨f, n, v, e, h⟩ := ih
        exact ⟨f, n, v, e, h⟩
      | order k =>
        obtain ⟨f, n, v, e, ht, hn, hsl, hv0, hv1, he0, he1, hf⟩ := ih
        have hix : s.index = v := by simp only [State.index, hsl]
        simp only [Event.handle]
        by_cases hlt : v < n
        · rw [updateFrame_ok env hr (s := { s with oActive := k }) ht
            (by change 0 ≤ s.index; omega) (by change s.index < n; omega)]
          refine ⟨f, n, v, e, ht, hn, hsl, hv0, hv1, he0, he1, fun _ => ?_⟩
          have : State.index { s with oActive := k } = v := hix
          simp only [this]
          exact ⟨trivial, trivial⟩
        · rw [updateFrame_out env (s := { s with oActive := k }) ht
            (by change 0 ≤ s.index; omega) (by change ¬ s.index < n; omega)]
          exact ⟨f, n, v, e, ht, hn, hsl, hv0, hv1, he0, he1, fun h => absurd h hlt⟩
      | playPause =>
        have := playPause_sel s
        simp only [Prod.mk.injEq] at this
        obtain ⟨f, n, v, e, ht, hn, hsl, hv0, hv1, he0, he1, hf⟩ := ih
        simp only [Event.handle]
        refine ⟨f, n, v, e, this.2.1 ▸ ht, hn, this.2.2.1 ▸ hsl, hv0, hv1, he0, he1, ?_⟩
        rw [this.2.2.2.1, this.2.2.2.2.1, this.2.2.2.2.2]
        exact hf

/-! ### Choices -/

/-- The fields of the choice of a pressure. -/
def selP (s : State) := (s.tree, s.pressures, s.pActive)

/-- The fields of the choice of a pressure and a temperature. -/
def selT (s : State) := (selP s, s.temps, s.tValue)

/-- The fields of the choice of a pressure, a temperature and a crystal. -/
def selC (s : State) := (selT s, s.crystals, s.cActive)

theorem updateTrajectory_selC : Keeps selC (updateTrajectory env) := by
  intro s
  have h := updateTrajectory_keeps env s
  simp only [sel, Prod.mk.injEq] at h
  simp only [selC, selT, selP, Prod.mk.injEq]
  obtain ⟨⟨h1, h2, h3, h4, h5, h6, h7, -, -⟩, -⟩ := h
  exact ⟨⟨⟨h1, h2, h3⟩, h4, h5⟩, h6, h7⟩

theorem setIter_selC (v : Str) : Keeps selC (setIter env v) := by
  intro s
  unfold setIter
  split
  · rfl
  · exact updateTrajectory_selC env { s with iValue := v }

theorem updateIndex_selC : Keeps selC (updateIndex env) := by
  intro s
  unfold updateIndex
  split
  · rfl
  · split
    · rfl
    · rename_i d _ _ i _
      exact (setIter_selC env i).andThen (updateTrajectory_selC env) { s with iters := sortedKeys d }

theorem setCrystal_selT (k : Nat) : Keeps selT (setCrystal env k) := by
  intro s
  unfold setCrystal
  split
  · rfl
  · exact congrArg Prod.fst (updateIndex_selC env { s with cActive := k })

theorem updateIndex_selT : Keeps selT (updateIndex env) := fun s =>
  congrArg Prod.fst (updateIndex_selC env s)

theorem updateCrystal_selT : Keeps selT (updateCrystal env) := by
  intro s
  unfold updateCrystal
  split
  · rfl
  · rename_i d _
    exact (setCrystal_selT env 0).andThen (updateIndex_selT env) { s with crystals := sortedKeys d }

theorem setTemperature_selP (v : Str) : Keeps selP (setTemperature env v) := by
  intro s
  unfold setTemperature
  split
  · rfl
  · exact congrArg Prod.fst (updateCrystal_selT env { s with tValue := v })

theorem updateTemperature_selP : Keeps selP (updateTemperature env) := by
  intro s
  unfold updateTemperature
  split
  · rfl
  · split
    · rfl
    · rename_i d _ _ t _
      exact (setTemperature_selP env t).andThen
        (fun s => congrArg Prod.fst (updateCrystal_selT env s)) { s with temps := sortedKeys d }

/-! ### Success of the construction -/

theorem create_ok {files : List Str} {tree : Tree} (hp : parseDirectory files = .ok tree)
    (hne : tree ≠ []) (ho : AllOpen env) (hr : AllRead env) (timers : List Nat) (fresh : Nat) :
    ∃ s f n, create env files timers fresh = .ok s ∧ s.trajectory = some (f, n) ∧
      s.slider = some ⟨0, n⟩ := by
  obtain ⟨s0, f, h1, h2, h3, -⟩ := initDirectory_full (parseDirectory_wf hp) hne timers fresh
  obtain ⟨n, hn, hpos⟩ := ho f
  have h4 := updateTrajectory_fresh env hr h2 h3 hn hpos
  refine ⟨initDoc (initMedia (updateTrajectory env s0).1), f, n, ?_, ?_, ?_⟩
  · unfold create
    simp only [hp, h1, h4]
  · rw [h4]
    rfl
  · rw [h4]
    simp only [initDoc, initMedia, Option.map_some, Option.getD_some, Option.some.injEq, Slider.mk.injEq,
      true_and]
    exact max_eq_left (by omega)

/-! ### Entries of the tree -/

theorem Under.unique {f p t c i p' t' c' i' : Str} (h : Under f p t c i)
    (h' : Under f p' t' c' i') : p = p' ∧ t = t' ∧ c = c' ∧ i = i' := by
  obtain ⟨v, h1, h2, h3, h4, h5⟩ := h
  obtain ⟨v', h1', h2', h3', h4', h5'⟩ := h'
  rw [h1] at h1'
  cases h1'
  rw [h2] at h2'
  rw [h3] at h3'
  cases h2'
  cases h3'
  have key : ∀ (o : Option Str) (a b : Str), Names.PrintsAs o a → Names.PrintsAs o b → a = b := by
    rintro o a b (h | ⟨h, ha⟩) (h' | ⟨h', hb⟩)
    · rw [h] at h'
      cases h'
      rfl
    · rw [h] at h'
      cases h'
    · rw [h] at h'
      cases h'
    · rw [ha, hb]
  exact ⟨rfl, rfl, key _ _ _ h4 h4', key _ _ _ h5 h5'⟩

theorem lookup_exists {files : List Str} {tree : Tree} (h : parseDirectory files = .ok tree)
    (p t c i : Str) :
    (∃ g, Tree.lookup tree p t c i = some g) ↔ ∃ f ∈ files, Under f p t c i := by
  constructor
  · rintro ⟨g, hg⟩
    obtain ⟨pre, post, h1, h2, -⟩ := (Names.C58_entries files tree h p t c i g).1 hg
    exact ⟨g, by rw [h1]; simp, h2⟩
  · rintro ⟨f, hf, hu⟩
    obtain ⟨p', t', c', i', g, h1, h2, -⟩ := Names.C58_present files tree h f hf
    obtain ⟨rfl, rfl, rfl, rfl⟩ := Under.unique hu h1
    exact ⟨g, h2⟩

theorem lookup_of {tree : Tree} {p t c i g : Str} {d1 d2 d3} (h1 : Dict.get? tree p = some d1)
    (h2 : Dict.get? d1 t = some d2) (h3 : Dict.get? d2 c = some d3) (h4 : Dict.get? d3 i = some g) :
    Tree.lookup tree p t c i = some g := by
  unfold Tree.lookup
  rw [h1]
  simp only [Option.bind_some]
  rw [h2]
  simp only [Option.bind_some]
  rw [h3]
  simp only [Option.bind_some]
  exact h4

theorem lookup_elim {tree : Tree} {p t c i g : Str} (h : Tree.lookup tree p t c i = some g) :
    ∃ d1 d2 d3, Dict.get? tree p = some d1 ∧ Dict.get? d1 t = some d2 ∧ Dict.get? d2 c = some d3 ∧
      Dict.get? d3 i = some g := by
  unfold Tree.lookup at h
  simp only [Option.bind_eq_some_iff] at h
  obtain ⟨d3, ⟨d2, ⟨d1, h1, h2⟩, h3⟩, h4⟩ := h
  exact ⟨d1, d2, d3, h1, h2, h3, h4⟩

theorem tree_ne_nil {files : List Str} {tree : Tree} (h : parseDirectory files = .ok tree)
    (hne : files ≠ []) : tree ≠ [] := by
  obtain ⟨f, fs, rfl⟩ := List.exists_cons_of_ne_nil hne
  obtain ⟨p, t, c, i, g, -, h2, -⟩ := Names.C58_present _ tree h f (by simp)
  obtain ⟨d1, d2, d3, h3, -⟩ := lookup_elim h2
  rintro rfl
  simp [Dict.get?] at h3

/-! ### Timers -/

/-- The timers of the document, given those registered before. -/
def Timed (base : List Nat) (s : State) : Prop :=
  (s.playing = false ∧ s.timers = base ∧ ∀ t ∈ base, t < s.fresh) ∨
    (s.playing = true ∧ ∃ c, s.callback = some c ∧ s.timers = base ++ [c] ∧ c ∉ base ∧
      c < s.fresh ∧ ∀ t ∈ base, t < s.fresh)

theorem Timed.congr {base : List Nat} {s s' : State} (h : Timed base s) (e : tim s' = tim s) :
    Timed base s' := by
  simp only [tim, Prod.mk.injEq] at e
  obtain ⟨e1, e2, e3, e4⟩ := e
  unfold Timed
  rw [e1, e2, e3, e4]
  exact h

theorem playPause_timed {base : List Nat} {s : State} (h : Timed base s) :
    Timed base (playPause s).1 ∧ (playPause s).1.playing = !s.playing ∧ (playPause s).2 = none := by
  unfold playPause
  rcases h with ⟨h1, h2, h3⟩ | ⟨h1, c, h2, h3, h4, h5, h6⟩
  · rw [if_neg (by simp [h1])]
    refine ⟨Or.inr ⟨rfl, s.fresh, rfl, by simp only [h2], ?_, ?_, ?_⟩, by simp [h1], rfl⟩
    · intro hm
      exact absurd (h3 _ hm) (lt_irrefl _)
    · simp only
      omega
    · intro t ht
      have := h3 t ht
      simp only
      omega
  · rw [if_pos h1, h2]
    simp only
    rw [if_pos (by rw [h3]; simp)]
    refine ⟨Or.inl ⟨rfl, ?_, h6⟩, by simp [h1], rfl⟩
    simp only [h3]
    rw [List.erase_append_right _ h4]
    simp

theorem handle_timed (e : Event) {base : List Nat} {s : State} (h : Timed base s) :
    Timed base (e.handle env s).1 := by
  by_cases he : e = .playPause
  · subst he
    exact (playPause_timed h).1
  · exact h.congr (tim_keeps env e he s)

theorem reachable_timed {files : List Str} {timers : List Nat} {fresh : Nat} {s : State}
    (hf : ∀ t ∈ timers, t < fresh) (h : Reachable env files timers fresh s) : Timed timers s := by
  induction h with
  | start s h =>
    obtain ⟨tree, s0, f, n, h1, h2, h3, h4, h7, h8, h9, h5, h6, rfl⟩ := create_inv env h
    have ht : Timed timers s0 := Or.inl ⟨h7, h8, by rw [h9]; exact hf⟩
    exact ht.congr (congrArg (fun x => x.2.1) (updateTrajectory_fixed env s0))
  | step s e h he ih => exact handle_timed env e ih

end Verif.Viewer
