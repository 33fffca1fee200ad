import Verif.Names.Props
import Verif.Viewer.Spec
/-!
# Lemmas on the viewer: selections
-/

namespace Verif.Viewer

open Verif.Names (Tree parseDirectory parseFiles parseFile insertFile Under get?_within)

/-! ### Dictionaries -/

theorem mem_keys_iff {ν : Type} (d : Dict Str ν) (k : Str) :
    k ∈ d.map Prod.fst ↔ ∃ v, Dict.get? d k = some v := by
  induction d with
  | nil => simp [Dict.get?]
  | cons p d ih =>
    obtain ⟨a, b⟩ := p
    simp only [List.map_cons, List.mem_cons, Dict.get?]
    by_cases h : a = k
    · simp [h]
    · rw [if_neg h, ← ih]
      exact ⟨fun h1 => h1.resolve_left (fun e => h e.symm), Or.inr⟩

theorem mem_sortedKeys {ν : Type} (d : Dict Str ν) (k : Str) :
    k ∈ sortedKeys d ↔ ∃ v, Dict.get? d k = some v := by
  rw [sortedKeys, List.mem_mergeSort, mem_keys_iff]

theorem sortedKeys_first {ν : Type} (d : Dict Str ν) (h : d ≠ []) :
    ∃ k v, at' (sortedKeys d) 0 = .ok k ∧ (sortedKeys d)[0]? = some k ∧ Dict.get? d k = some v := by
  have hl : 0 < (sortedKeys d).length := by
    rw [sortedKeys, List.length_mergeSort, List.length_map]
    exact List.length_pos_iff.2 h
  have hm : (sortedKeys d)[0] ∈ sortedKeys d := List.getElem_mem hl
  obtain ⟨v, hv⟩ := (mem_sortedKeys d _).1 hm
  refine ⟨_, v, ?_, List.getElem?_eq_getElem hl, hv⟩
  unfold at'
  rw [List.getElem?_eq_getElem hl]

theorem key_ok {ν : Type} (d : Dict Str ν) (k : Str) (v : ν) (h : Dict.get? d k = some v) :
    key d k = .ok v := by
  unfold key
  rw [h]

theorem at'_ok (l : List Str) (i : Nat) (x : Str) (h : l[i]? = some x) : at' l i = .ok x := by
  unfold at'
  rw [h]

/-- No dictionary inside the tree is empty. -/
def WF (tree : Tree) : Prop :=
  ∀ p d1, Dict.get? tree p = some d1 → d1 ≠ [] ∧
    ∀ t d2, Dict.get? d1 t = some d2 → d2 ≠ [] ∧
      ∀ c d3, Dict.get? d2 c = some d3 → d3 ≠ []

theorem set_ne_nil {κ ν : Type} [DecidableEq κ] (d : Dict κ ν) (k : κ) (v : ν) :
    Dict.set d k v ≠ [] := by
  cases d with
  | nil => simp [Dict.set]
  | cons p d =>
    obtain ⟨a, b⟩ := p
    simp only [Dict.set]
    split <;> simp

theorem within_ne_nil {ν : Type} (d : Dict Str (List ν)) (k : Str) (g : List ν → List ν) :
    Names.within d k g ≠ [] := by
  unfold Names.within
  exact set_ne_nil _ _ _

theorem insertFile_wf (d : Tree) (h : WF d) (p t c i f : Str) : WF (insertFile d p t c i f) := by
  intro p' d1 h1
  unfold insertFile at h1
  rw [get?_within] at h1
  split at h1
  · rename_i hp
    simp only [Option.some.injEq] at h1
    subst h1
    refine ⟨within_ne_nil _ _ _, ?_⟩
    intro t' d2 h2
    rw [get?_within] at h2
    have hold : ∀ t d2, Dict.get? ((Dict.get? d p).getD []) t = some d2 → d2 ≠ [] ∧
        ∀ c d3, Dict.get? d2 c = some d3 → d3 ≠ [] := by
      intro t d2 h3
      cases hd : Dict.get? d p with
      | none => rw [hd] at h3; simp [Dict.get?] at h3
      | some d1 =>
        rw [hd] at h3
        exact (h p d1 hd).2 t d2 h3
    split at h2
    · rename_i ht
      simp only [Option.some.injEq] at h2
      subst h2
      refine ⟨within_ne_nil _ _ _, ?_⟩
      intro c' d3 h3
      rw [get?_within] at h3
      split at h3
      · simp only [Option.some.injEq] at h3
        subst h3
        exact set_ne_nil _ _ _
      · cases hd : Dict.get? ((Dict.get? d p).getD []) t with
        | none => rw [hd] at h3; simp [Dict.get?] at h3
        | some d2 =>
          rw [hd] at h3
          exact (hold t d2 hd).2 c' d3 h3
    · exact hold t' d2 h2
  · exact h p' d1 h1

theorem parseFiles_wf (files : List Str) : ∀ d d', WF d → parseFiles d files = .ok d' → WF d' := by
  induction files with
  | nil =>
    intro d d' h h'
    cases h'
    exact h
  | cons f fs ih =>
    intro d d' h h'
    unfold parseFiles at h'
    cases hp : parseFile d f with
    | error e => rw [hp] at h'; cases h'
    | ok d1 =>
      rw [hp] at h'
      refine ih d1 d' ?_ h'
      unfold parseFile at hp
      split at hp
      · cases hp
      · split at hp
        · cases hp
        · split at hp
          · cases hp
          · cases hp
            exact insertFile_wf d h _ _ _ _ _

theorem parseDirectory_wf {files : List Str} {tree : Tree} (h : parseDirectory files = .ok tree) :
    WF tree :=
  parseFiles_wf files [] tree (by intro p d1 h1; simp [Dict.get?] at h1) h

/-! ### The levels of the selection -/

/-- The pressure and the files at it. -/
structure LvP (s : State) (p : Str) (d1 : Dict Str (Dict Str (Dict Str Str))) : Prop where
  wf : WF s.tree
  list : s.pressures = sortedKeys s.tree
  sel : s.pressures[s.pActive]? = some p
  get : Dict.get? s.tree p = some d1

/-- The temperature and the files at it. -/
structure LvT (s : State) (d1 : Dict Str (Dict Str (Dict Str Str)))
    (d2 : Dict Str (Dict Str Str)) : Prop where
  list : s.temps = sortedKeys d1
  get : Dict.get? d1 s.tValue = some d2

/-- The crystal and its files. -/
structure LvC (s : State) (d2 : Dict Str (Dict Str Str)) (c : Str) (d3 : Dict Str Str) : Prop where
  list : s.crystals = sortedKeys d2
  sel : s.crystals[s.cActive]? = some c
  get : Dict.get? d2 c = some d3

/-- The iteration and its file. -/
structure LvI (s : State) (d3 : Dict Str Str) (f : Str) : Prop where
  list : s.iters = sortedKeys d3
  get : Dict.get? d3 s.iValue = some f

/-- A consistent selection of the file `f`. -/
def Full (s : State) (f : Str) : Prop :=
  ∃ p d1 d2 c d3, LvP s p d1 ∧ LvT s d1 d2 ∧ LvC s d2 c d3 ∧ LvI s d3 f

/-- The fields that make up the selection. -/
def sel (s : State) := (s.tree, s.pressures, s.pActive, s.temps, s.tValue, s.crystals, s.cActive,
  s.iters, s.iValue)

/-- The fields that make up the timers. -/
def tim (s : State) := (s.playing, s.callback, s.timers, s.fresh)

theorem Full.congr {s s' : State} {f : Str} (h : Full s f) (e : sel s' = sel s) : Full s' f := by
  simp only [sel, Prod.mk.injEq] at e
  obtain ⟨e1, e2, e3, e4, e5, e6, e7, e8, e9⟩ := e
  obtain ⟨p, d1, d2, c, d3, hp, ht, hc, hi⟩ := h
  exact ⟨p, d1, d2, c, d3, ⟨e1 ▸ hp.wf, by rw [e1, e2]; exact hp.list, by rw [e2, e3]; exact hp.sel,
    by rw [e1]; exact hp.get⟩, ⟨by rw [e4]; exact ht.list, by rw [e5]; exact ht.get⟩,
    ⟨by rw [e6]; exact hc.list, by rw [e6, e7]; exact hc.sel, hc.get⟩,
    ⟨by rw [e8]; exact hi.list, by rw [e9]; exact hi.get⟩⟩

theorem byPressure_ok {s : State} {p d1} (h : LvP s p d1) : s.byPressure = .ok d1 := by
  unfold State.byPressure State.pressure
  rw [at'_ok _ _ _ h.sel]
  exact key_ok _ _ _ h.get

theorem byTemperature_ok {s : State} {p d1 d2} (h : LvP s p d1) (h2 : LvT s d1 d2) :
    s.byTemperature = .ok d2 := by
  unfold State.byTemperature
  rw [byPressure_ok h]
  exact key_ok _ _ _ h2.get

theorem byCrystal_ok {s : State} {p d1 d2 c d3} (h : LvP s p d1) (h2 : LvT s d1 d2)
    (h3 : LvC s d2 c d3) : s.byCrystal = .ok d3 := by
  unfold State.byCrystal
  rw [byTemperature_ok h h2]
  simp only [State.crystal]
  rw [at'_ok _ _ _ h3.sel]
  exact key_ok _ _ _ h3.get

theorem selectedFile_ok {s : State} {f : Str} (h : Full s f) : s.selectedFile = .ok f := by
  obtain ⟨p, d1, d2, c, d3, h1, h2, h3, h4⟩ := h
  unfold State.selectedFile
  rw [byCrystal_ok h1 h2 h3]
  exact key_ok _ _ _ h4.get

/-! ### What the handlers leave alone -/

/-- The handler leaves `π` as it is. -/
def Keeps {α : Type} (π : State → α) (h : Handler) : Prop := ∀ s, π (h s).1 = π s

theorem Keeps.andThen {α : Type} {π : State → α} {a b : Handler} (ha : Keeps π a)
    (hb : Keeps π b) : Keeps π (andThen a b) := by
  intro s
  have h1 := ha s
  unfold Viewer.andThen
  generalize a s = r at h1 ⊢
  rcases r with ⟨s', _ | e⟩
  · simp only
    rw [hb s']
    exact h1
  · exact h1

theorem Keeps.tryAttribute {α : Type} {π : State → α} {a : Handler} (ha : Keeps π a) :
    Keeps π (tryAttribute a) := by
  intro s
  have h1 := ha s
  unfold Viewer.tryAttribute
  generalize a s = r at h1 ⊢
  rcases r with ⟨s', _ | e⟩
  · exact h1
  · cases e <;> exact h1

variable (env : Env)

/-- The fields that reading a frame leaves alone. -/
def core (s : State) := (sel s, tim s, s.trajectory)

theorem updateData_keeps : Keeps (fun s => (core s, s.slider, s.frame)) (updateData env) := by
  intro s
  unfold updateData
  split
  · rfl
  · split <;> rfl

theorem updateFrame_keeps : Keeps (fun s => (core s, s.slider)) (updateFrame env) := by
  intro s
  unfold updateFrame
  split
  · rfl
  · split
    · rfl
    · split
      · rfl
      · rename_i f n _ _ i _ _ _
        have h := updateData_keeps env { s with frame := some (f, i) }
        simp only [Prod.mk.injEq] at h
        exact Prod.ext h.1 h.2.1

theorem setSlider_keeps (v : Int) : Keeps core (setSlider env v) := by
  intro s
  unfold setSlider
  split
  · rfl
  · split
    · rfl
    · rename_i sl _ _
      exact congrArg Prod.fst (updateFrame_keeps env { s with slider := some { sl with value := v } })

theorem setEnd_keeps (v : Int) : Keeps core (setEnd v) := by
  intro s
  unfold setEnd
  split <;> rfl

theorem clampSlider_keeps (n : Nat) : Keeps core (clampSlider env n) := by
  intro s
  unfold clampSlider
  split
  · rfl
  · split
    · exact (setSlider_keeps env _).andThen (setEnd_keeps _) s
    · exact setEnd_keeps _ s

theorem showName_keeps (f : Str) : Keeps core (showName f) := fun _ => rfl

theorem updateFrame_keeps_core : Keeps core (updateFrame env) := fun s =>
  congrArg Prod.fst (updateFrame_keeps env s)

/-- What `updateTrajectory` does once the file is open. -/
def afterOpen (f : Str) (n : Nat) : Handler :=
  andThen (tryAttribute (clampSlider env n)) (andThen (updateFrame env) (showName f))

theorem afterOpen_keeps (f : Str) (n : Nat) : Keeps core (afterOpen env f n) :=
  ((clampSlider_keeps env n).tryAttribute).andThen
    ((updateFrame_keeps_core env).andThen (showName_keeps f))

theorem updateTrajectory_keeps : Keeps (fun s => (sel s, tim s)) (updateTrajectory env) := by
  intro s
  unfold updateTrajectory
  split
  · rfl
  · split
    · rfl
    · rename_i f _ _ n _
      have := afterOpen_keeps env f n { s with trajectory := some (f, n) }
      simp only [core, Prod.mk.injEq] at this
      exact Prod.ext this.1 this.2.1

theorem updateTrajectory_trajectory {s : State} {f : Str} {n : Nat} (h : Full s f)
    (ho : env.opens f = .ok n) : (updateTrajectory env s).1.trajectory = some (f, n) := by
  unfold updateTrajectory
  rw [selectedFile_ok h]
  simp only [ho]
  have := afterOpen_keeps env f n { s with trajectory := some (f, n) }
  simp only [core, Prod.mk.injEq] at this
  exact this.2.2

/-! ### The selection after each handler -/

/-- A consistent selection, of which the file is open if all files can be opened. -/
def Good (s : State) : Prop :=
  ∃ f, Full s f ∧ (AllOpen env → ∃ n, env.opens f = .ok n ∧ s.trajectory = some (f, n))

theorem updateTrajectory_good {s : State} {f : Str} (h : Full s f) :
    Good env (updateTrajectory env s).1 := by
  refine ⟨f, h.congr (congrArg Prod.fst (updateTrajectory_keeps env s)), ?_⟩
  intro ha
  obtain ⟨n, hn, -⟩ := ha f
  exact ⟨n, hn, updateTrajectory_trajectory env h hn⟩

/-- A property of the state after `a` and `b`. -/
theorem andThen_prop (P : State → Prop) (a b : Handler) (s : State)
    (h1 : ∀ e, (a s).2 = some e → P (a s).1) (h2 : (a s).2 = none → P (b (a s).1).1) :
    P (andThen a b s).1 := by
  unfold andThen
  rcases h : a s with ⟨s', _ | e⟩
  · rw [h] at h2
    exact h2 rfl
  · rw [h] at h1
    exact h1 e rfl

variable (P : State → Prop) (W : Option Slider → Prop)
  (hP : ∀ s f, Full s f → W s.slider → P (updateTrajectory env s).1)
  (hW : ∀ s, P s → W s.slider)

include hP

theorem setIter_prop {s : State} {p d1 d2 c d3 f} {i : Str} (hp : LvP s p d1) (ht : LvT s d1 d2)
    (hc : LvC s d2 c d3) (hl : s.iters = sortedKeys d3) (hi : Dict.get? d3 i = some f)
    (hw : W s.slider) :
    ((setIter env i s).2 = none ∧ (setIter env i s).1 = s ∧ s.iValue = i) ∨
      P (setIter env i s).1 ∧ ∃ f, Full (setIter env i s).1 f := by
  unfold setIter
  split
  · rename_i h
    exact Or.inl ⟨rfl, rfl, h⟩
  · have hfull : Full { s with iValue := i } f :=
      ⟨p, d1, d2, c, d3, ⟨hp.wf, hp.list, hp.sel, hp.get⟩, ⟨ht.list, ht.get⟩,
        ⟨hc.list, hc.sel, hc.get⟩, ⟨hl, hi⟩⟩
    exact Or.inr ⟨hP _ f hfull hw,
      f, hfull.congr (congrArg Prod.fst (updateTrajectory_keeps env _))⟩

include hW

theorem updateIndex_prop {s : State} {p d1 d2 c d3} (hp : LvP s p d1)
    (ht : LvT s d1 d2) (hc : LvC s d2 c d3) (hw : W s.slider) :
    P (updateIndex env s).1 ∧ ∃ f, Full (updateIndex env s).1 f := by
  unfold updateIndex
  rw [byCrystal_ok hp ht hc]
  simp only
  have hne : d3 ≠ [] := ((hp.wf _ _ hp.get).2 _ _ ht.get).2 _ _ hc.get
  obtain ⟨i, f, h1, h2, h3⟩ := sortedKeys_first d3 hne
  rw [h1]
  simp only
  have hset := setIter_prop env P W hP (s := { s with iters := sortedKeys d3 }) (f := f) (i := i)
    ⟨hp.wf, hp.list, hp.sel, hp.get⟩ ⟨ht.list, ht.get⟩ ⟨hc.list, hc.sel, hc.get⟩ rfl h3 hw
  refine andThen_prop (fun s => P s ∧ ∃ f, Full s f) _ _ _ ?_ ?_
  · intro e he
    rcases hset with ⟨hn, -⟩ | h
    · rw [hn] at he
      cases he
    · exact h
  · intro _
    rcases hset with ⟨-, he, hi⟩ | ⟨h4, f', h5⟩
    · rw [he]
      have hfull : Full { s with iters := sortedKeys d3 } f :=
        ⟨p, d1, d2, c, d3, ⟨hp.wf, hp.list, hp.sel, hp.get⟩, ⟨ht.list, ht.get⟩,
          ⟨hc.list, hc.sel, hc.get⟩, ⟨rfl, hi ▸ h3⟩⟩
      exact ⟨hP _ f hfull hw, f, hfull.congr (congrArg Prod.fst (updateTrajectory_keeps env _))⟩
    · exact ⟨hP _ f' h5 (hW _ h4), f', h5.congr (congrArg Prod.fst (updateTrajectory_keeps env _))⟩

theorem setCrystal_prop {s : State} {p d1 d2 c d3} {k : Nat} (hp : LvP s p d1) (ht : LvT s d1 d2)
    (hl : s.crystals = sortedKeys d2) (hk : s.crystals[k]? = some c) (hg : Dict.get? d2 c = some d3)
    (hw : W s.slider) :
    ((setCrystal env k s).2 = none ∧ (setCrystal env k s).1 = s ∧ s.cActive = k) ∨
      P (setCrystal env k s).1 ∧ ∃ f, Full (setCrystal env k s).1 f := by
  unfold setCrystal
  split
  · rename_i h
    exact Or.inl ⟨rfl, rfl, h⟩
  · exact Or.inr (updateIndex_prop env P W hP hW (s := { s with cActive := k })
      ⟨hp.wf, hp.list, hp.sel, hp.get⟩ ⟨ht.list, ht.get⟩ ⟨hl, hk, hg⟩ hw)

theorem updateCrystal_prop {s : State} {p d1 d2} (hp : LvP s p d1) (ht : LvT s d1 d2)
    (hw : W s.slider) : P (updateCrystal env s).1 ∧ ∃ f, Full (updateCrystal env s).1 f := by
  unfold updateCrystal
  rw [byTemperature_ok hp ht]
  simp only
  have hne : d2 ≠ [] := ((hp.wf _ _ hp.get).2 _ _ ht.get).1
  obtain ⟨c, d3, h1, h2, h3⟩ := sortedKeys_first d2 hne
  have hset := setCrystal_prop env P W hP hW (s := { s with crystals := sortedKeys d2 }) (k := 0)
    ⟨hp.wf, hp.list, hp.sel, hp.get⟩ ⟨ht.list, ht.get⟩ rfl h2 h3 hw
  refine andThen_prop (fun s => P s ∧ ∃ f, Full s f) _ _ _ ?_ ?_
  · intro e he
    rcases hset with ⟨hn, -⟩ | h
    · rw [hn] at he
      cases he
    · exact h
  · intro _
    rcases hset with ⟨-, he, hi⟩ | ⟨h4, f', p', d1', d2', c', d3', h5, h6, h7, h8⟩
    · rw [he]
      refine updateIndex_prop env P W hP hW (s := { s with crystals := sortedKeys d2 })
        ⟨hp.wf, hp.list, hp.sel, hp.get⟩ ⟨ht.list, ht.get⟩ ⟨rfl, ?_, h3⟩ hw
      simp only at hi
      rw [hi]
      exact h2
    · exact updateIndex_prop env P W hP hW h5 h6 h7 (hW _ h4)

theorem setTemperature_prop {s : State} {p d1 d2} {v : Str} (hp : LvP s p d1)
    (hl : s.temps = sortedKeys d1) (hg : Dict.get? d1 v = some d2) (hw : W s.slider) :
    ((setTemperature env v s).2 = none ∧ (setTemperature env v s).1 = s ∧ s.tValue = v) ∨
      P (setTemperature env v s).1 ∧ ∃ f, Full (setTemperature env v s).1 f := by
  unfold setTemperature
  split
  · rename_i h
    exact Or.inl ⟨rfl, rfl, h⟩
  · exact Or.inr (updateCrystal_prop env P W hP hW (s := { s with tValue := v })
      ⟨hp.wf, hp.list, hp.sel, hp.get⟩ ⟨hl, hg⟩ hw)

theorem updateTemperature_prop {s : State} {p d1} (hp : LvP s p d1) (hw : W s.slider) :
    P (updateTemperature env s).1 ∧ ∃ f, Full (updateTemperature env s).1 f := by
  unfold updateTemperature
  rw [byPressure_ok hp]
  simp only
  have hne : d1 ≠ [] := (hp.wf _ _ hp.get).1
  obtain ⟨t, d2, h1, h2, h3⟩ := sortedKeys_first d1 hne
  rw [h1]
  simp only
  have hset := setTemperature_prop env P W hP hW (s := { s with temps := sortedKeys d1 }) (v := t)
    ⟨hp.wf, hp.list, hp.sel, hp.get⟩ rfl h3 hw
  refine andThen_prop (fun s => P s ∧ ∃ f, Full s f) _ _ _ ?_ ?_
  · intro e he
    rcases hset with ⟨hn, -⟩ | h
    · rw [hn] at he
      cases he
    · exact h
  · intro _
    rcases hset with ⟨-, he, hi⟩ | ⟨h4, f', p', d1', d2', c', d3', h5, h6, h7, h8⟩
    · rw [he]
      refine updateCrystal_prop env P W hP hW (s := { s with temps := sortedKeys d1 }) (d2 := d2)
        ⟨hp.wf, hp.list, hp.sel, hp.get⟩ ⟨rfl, ?_⟩ hw
      simp only at hi ⊢
      rw [hi]
      exact h3
    · exact updateCrystal_prop env P W hP hW h5 h6 (hW _ h4)

/-- The events that select a file: they change nothing or lead to `P`. -/
theorem selects_prop {s : State} {f : Str} (h : Full s f) (hw : W s.slider) (e : Event)
    (he : e.selects) (hen : e.enabled s) :
    (e.handle env s) = (s, none) ∨
      P (e.handle env s).1 ∧ ∃ f, Full (e.handle env s).1 f := by
  obtain ⟨p, d1, d2, c, d3, hp, ht, hc, hi⟩ := h
  cases e with
  | pressure i =>
    simp only [Event.handle]
    split
    · exact Or.inl rfl
    · right
      simp only [Event.enabled] at hen
      have hm : s.pressures[i] ∈ sortedKeys s.tree := by
        rw [← hp.list]
        exact List.getElem_mem hen
      obtain ⟨d1', hd1'⟩ := (mem_sortedKeys _ _).1 hm
      exact updateTemperature_prop env P W hP hW (s := { s with pActive := i }) (p := s.pressures[i])
        ⟨hp.wf, hp.list, List.getElem?_eq_getElem hen, hd1'⟩ hw
  | temperature v =>
    simp only [Event.enabled] at hen
    rw [ht.list, mem_sortedKeys] at hen
    obtain ⟨d2', hd2'⟩ := hen
    rcases setTemperature_prop env P W hP hW hp ht.list hd2' hw with ⟨h1, h2, -⟩ | h1
    · exact Or.inl (Prod.ext h2 h1)
    · exact Or.inr h1
  | crystal i =>
    simp only [Event.enabled] at hen
    have hm : s.crystals[i] ∈ sortedKeys d2 := by
      rw [← hc.list]
      exact List.getElem_mem hen
    obtain ⟨d3', hd3'⟩ := (mem_sortedKeys _ _).1 hm
    rcases setCrystal_prop env P W hP hW hp ht hc.list (List.getElem?_eq_getElem hen) hd3' hw with
      ⟨h1, h2, -⟩ | h1
    · exact Or.inl (Prod.ext h2 h1)
    · exact Or.inr h1
  | iteration v =>
    simp only [Event.enabled] at hen
    rw [hi.list, mem_sortedKeys] at hen
    obtain ⟨f', hf'⟩ := hen
    rcases setIter_prop env P W hP hp ht hc hi.list hf' hw with ⟨h1, h2, -⟩ | h1
    · exact Or.inl (Prod.ext h2 h1)
    · exact Or.inr h1
  | slide v => exact absurd he (by simp [Event.selects])
  | next => exact absurd he (by simp [Event.selects])
  | previous => exact absurd he (by simp [Event.selects])
  | tick => exact absurd he (by simp [Event.selects])
  | increment k => exact absurd he (by simp [Event.selects])
  | order k => exact absurd he (by simp [Event.selects])
  | playPause => exact absurd he (by simp [Event.selects])

end Verif.Viewer
