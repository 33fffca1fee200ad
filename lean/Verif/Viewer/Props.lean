import Verif.Viewer.StateLemmas
/-!
# Properties C69, C70, C71: the interactive viewer
-/

namespace Verif.Viewer

open Verif.Names (Tree parseDirectory Under HasPT)

variable (env : Env)

/-! ## C70 -/

/-- C70.  The viewer opens any directory that has a file, when all its files have a pressure and a
temperature and can be read. -/
theorem C70_opens (files : List Str) (timers : List Nat) (fresh : Nat) (hne : files ≠ [])
    (hpt : ∀ f ∈ files, HasPT f) (ho : AllOpen env) (hr : AllRead env) :
    ∃ s, create env files timers fresh = .ok s := by
  obtain ⟨tree, ht⟩ := (Names.C58_succeeds files).2 hpt
  obtain ⟨s, f, n, h, -⟩ := create_ok env ht (tree_ne_nil ht hne) ho hr timers fresh
  exact ⟨s, h⟩

/-- C70.  A directory without files is an IndexError: there is no first pressure. -/
theorem C70_empty (timers : List Nat) (fresh : Nat) : create env [] timers fresh = .error .indexError := by
  have h : parseDirectory [] = .ok [] := rfl
  unfold create
  rw [h]
  simp only [initDirectory, sortedKeys, List.map_nil, List.mergeSort_nil, at', List.getElem?_nil]

example (s : State) (i : Nat) (h : s.pressures.length ≤ i) : ({ s with pActive := i }).pressure = .error .indexError := by
  unfold State.pressure at'
  rw [List.getElem?_eq_none h]

/-- C70.  In every reachable state the selected combination names a file of the directory, and the
widgets offer exactly the combinations that do. -/
theorem C70_selection (files : List Str) (timers : List Nat) (fresh : Nat) (s : State)
    (h : Reachable env files timers fresh s) :
    ∃ p t c i, Selected s p t c i ∧ (∃ f ∈ files, Under f p t c i) ∧ Offers s files p t c := by
  obtain ⟨⟨f, ⟨p, d1, d2, c, d3, hp, ht, hc, hi⟩, -⟩, htr⟩ := reachable_good env h
  have hl := lookup_exists htr
  refine ⟨p, s.tValue, c, s.iValue, ⟨hp.sel, rfl, hc.sel, rfl⟩,
    (hl _ _ _ _).1 ⟨f, lookup_of hp.get ht.get hc.get hi.get⟩, ?_, ?_, ?_, ?_⟩
  · intro x
    rw [hp.list, mem_sortedKeys]
    constructor
    · rintro ⟨e1, he1⟩
      obtain ⟨hn1, hw1⟩ := hp.wf x e1 he1
      obtain ⟨t, e2, -, -, he2⟩ := sortedKeys_first e1 hn1
      obtain ⟨hn2, hw2⟩ := hw1 t e2 he2
      obtain ⟨c, e3, -, -, he3⟩ := sortedKeys_first e2 hn2
      obtain ⟨i, g, -, -, he4⟩ := sortedKeys_first e3 (hw2 c e3 he3)
      obtain ⟨f, hf, hu⟩ := (hl x t c i).1 ⟨g, lookup_of he1 he2 he3 he4⟩
      exact ⟨f, hf, t, c, i, hu⟩
    · rintro ⟨f, hf, t, c, i, hu⟩
      obtain ⟨g, hg⟩ := (hl x t c i).2 ⟨f, hf, hu⟩
      obtain ⟨e1, e2, e3, h1, -⟩ := lookup_elim hg
      exact ⟨e1, h1⟩
  · intro x
    rw [ht.list, mem_sortedKeys]
    constructor
    · rintro ⟨e2, he2⟩
      obtain ⟨hn2, hw2⟩ := (hp.wf p d1 hp.get).2 x e2 he2
      obtain ⟨c, e3, -, -, he3⟩ := sortedKeys_first e2 hn2
      obtain ⟨i, g, -, -, he4⟩ := sortedKeys_first e3 (hw2 c e3 he3)
      obtain ⟨f, hf, hu⟩ := (hl p x c i).1 ⟨g, lookup_of hp.get he2 he3 he4⟩
      exact ⟨f, hf, c, i, hu⟩
    · rintro ⟨f, hf, c, i, hu⟩
      obtain ⟨g, hg⟩ := (hl p x c i).2 ⟨f, hf, hu⟩
      obtain ⟨e1, e2, e3, h1, h2, -⟩ := lookup_elim hg
      rw [hp.get] at h1
      cases h1
      exact ⟨e2, h2⟩
  · intro x
    rw [hc.list, mem_sortedKeys]
    constructor
    · rintro ⟨e3, he3⟩
      obtain ⟨i, g, -, -, he4⟩ :=
        sortedKeys_first e3 (((hp.wf p d1 hp.get).2 _ d2 ht.get).2 x e3 he3)
      obtain ⟨f, hf, hu⟩ := (hl p s.tValue x i).1 ⟨g, lookup_of hp.get ht.get he3 he4⟩
      exact ⟨f, hf, i, hu⟩
    · rintro ⟨f, hf, i, hu⟩
      obtain ⟨g, hg⟩ := (hl p s.tValue x i).2 ⟨f, hf, hu⟩
      obtain ⟨e1, e2, e3, h1, h2, h3, -⟩ := lookup_elim hg
      rw [hp.get] at h1
      cases h1
      rw [ht.get] at h2
      cases h2
      exact ⟨e3, h3⟩
  · intro x
    rw [hi.list, mem_sortedKeys]
    constructor
    · rintro ⟨g, hg⟩
      exact (hl p s.tValue c x).1 ⟨g, lookup_of hp.get ht.get hc.get hg⟩
    · intro h
      obtain ⟨g, hg⟩ := (hl p s.tValue c x).2 h
      obtain ⟨e1, e2, e3, h1, h2, h3, h4⟩ := lookup_elim hg
      rw [hp.get] at h1
      cases h1
      rw [ht.get] at h2
      cases h2
      rw [hc.get] at h3
      cases h3
      exact ⟨g, h4⟩

/-- C70, proved part of the clause on the open trajectory.  Full statement: in every reachable state
the open trajectory is the selected file.  Proved when every file can be opened; otherwise see
`C70_open_refuted`. -/
theorem C70_open_partial (files : List Str) (timers : List Nat) (fresh : Nat) (s : State)
    (h : Reachable env files timers fresh s) (ho : AllOpen env) :
    ∃ p t c i f n, Selected s p t c i ∧ f ∈ files ∧ Under f p t c i ∧
      s.trajectory = some (f, n) ∧ env.opens f = .ok n := by
  obtain ⟨⟨f, ⟨p, d1, d2, c, d3, hp, ht, hc, hi⟩, htj⟩, htr⟩ := reachable_good env h
  obtain ⟨n, h1, h2⟩ := htj ho
  obtain ⟨pre, post, h3, h4, -⟩ := (Names.C58_entries files _ htr p s.tValue c s.iValue f).1
    (lookup_of hp.get ht.get hc.get hi.get)
  exact ⟨p, s.tValue, c, s.iValue, f, n, ⟨hp.sel, rfl, hc.sel, rfl⟩, by rw [h3]; simp, h4, h2, h1⟩

/-- C70.  Choosing a pressure selects it. -/
theorem C70_choose_pressure (s : State) (i : Nat) :
    ((Event.pressure i).handle env s).1.pressures = s.pressures ∧
    ((Event.pressure i).handle env s).1.pActive = i := by
  simp only [Event.handle]
  split
  · rename_i h
    exact ⟨rfl, h⟩
  · have := updateTemperature_selP env { s with pActive := i }
    simp only [selP, Prod.mk.injEq] at this
    exact ⟨this.2.1, this.2.2⟩

/-- C70.  Choosing a temperature selects it and leaves the pressure. -/
theorem C70_choose_temperature (s : State) (v : Str) :
    ((Event.temperature v).handle env s).1.pressures = s.pressures ∧
    ((Event.temperature v).handle env s).1.pActive = s.pActive ∧
    ((Event.temperature v).handle env s).1.tValue = v := by
  simp only [Event.handle, setTemperature]
  split
  · rename_i h
    exact ⟨rfl, rfl, h⟩
  · have := updateCrystal_selT env { s with tValue := v }
    simp only [selT, selP, Prod.mk.injEq] at this
    exact ⟨this.1.2.1, this.1.2.2, this.2.2⟩

/-- C70.  Choosing a crystal selects it and leaves the pressure and the temperature. -/
theorem C70_choose_crystal (s : State) (i : Nat) :
    ((Event.crystal i).handle env s).1.pressures = s.pressures ∧
    ((Event.crystal i).handle env s).1.pActive = s.pActive ∧
    ((Event.crystal i).handle env s).1.tValue = s.tValue ∧
    ((Event.crystal i).handle env s).1.crystals = s.crystals ∧
    ((Event.crystal i).handle env s).1.cActive = i := by
  simp only [Event.handle, setCrystal]
  split
  · rename_i h
    exact ⟨rfl, rfl, rfl, rfl, h⟩
  · have := updateIndex_selC env { s with cActive := i }
    simp only [selC, selT, selP, Prod.mk.injEq] at this
    exact ⟨this.1.1.2.1, this.1.1.2.2, this.1.2.2, this.2.1, this.2.2⟩

/-- C70.  Choosing an iteration selects it and leaves the other choices. -/
theorem C70_choose_iteration (s : State) (v : Str) :
    ((Event.iteration v).handle env s).1.pressures = s.pressures ∧
    ((Event.iteration v).handle env s).1.pActive = s.pActive ∧
    ((Event.iteration v).handle env s).1.tValue = s.tValue ∧
    ((Event.iteration v).handle env s).1.crystals = s.crystals ∧
    ((Event.iteration v).handle env s).1.cActive = s.cActive ∧
    ((Event.iteration v).handle env s).1.iValue = v := by
  simp only [Event.handle, setIter]
  split
  · rename_i h
    exact ⟨rfl, rfl, rfl, rfl, rfl, h⟩
  · have := updateTrajectory_keeps env { s with iValue := v }
    simp only [sel, Prod.mk.injEq] at this
    exact ⟨this.1.2.1, this.1.2.2.1, this.1.2.2.2.2.1, this.1.2.2.2.2.2.1, this.1.2.2.2.2.2.2.1,
      this.1.2.2.2.2.2.2.2.2⟩

/-- C70.  All other events leave the selection and the open trajectory alone. -/
theorem C70_others (s : State) (e : Event) (h : ¬ e.selects) :
    sel (e.handle env s).1 = sel s ∧ (e.handle env s).1.trajectory = s.trajectory := by
  have := other_sel env e h s
  simp only [Prod.mk.injEq] at this
  exact this

/-- Two files that differ in the iteration. -/
def twoFiles : List Str :=
  ["dump-Trimer-P1.00-T0.40-ID1.gsd".toList, "dump-Trimer-P1.00-T0.40-ID2.gsd".toList]

theorem twoFiles_under1 : Under "dump-Trimer-P1.00-T0.40-ID1.gsd".toList "1.00".toList "0.40".toList
    "None".toList "1".toList :=
  ⟨⟨some "0.40".toList, some "1.00".toList, none, some "1".toList⟩, by decide, rfl, rfl,
    Or.inr ⟨rfl, rfl⟩, Or.inl rfl⟩

theorem twoFiles_under2 : Under "dump-Trimer-P1.00-T0.40-ID2.gsd".toList "1.00".toList "0.40".toList
    "None".toList "2".toList :=
  ⟨⟨some "0.40".toList, some "1.00".toList, none, some "2".toList⟩, by decide, rfl, rfl,
    Or.inr ⟨rfl, rfl⟩, Or.inl rfl⟩

theorem twoFiles_hasPT : ∀ f ∈ twoFiles, HasPT f := by
  intro f hf
  simp only [twoFiles, List.mem_cons, List.not_mem_nil, or_false] at hf
  rcases hf with rfl | rfl
  · obtain ⟨v, h1, h2, h3, -⟩ := twoFiles_under1
    exact ⟨v, _, _, h1, h2, h3, by decide, by decide⟩
  · obtain ⟨v, h1, h2, h3, -⟩ := twoFiles_under2
    exact ⟨v, _, _, h1, h2, h3, by decide, by decide⟩

/-- Files of three frames that can all be read. -/
def threeFrames : Env where
  opens _ := .ok 3
  readErr _ _ := none
  dataErr _ _ _ := none

example : AllOpen threeFrames ∧ AllRead threeFrames :=
  ⟨fun _ => ⟨3, rfl, by decide⟩, fun _ _ => rfl, fun _ _ _ => rfl⟩

example : ∃ s, Reachable threeFrames twoFiles [] 0 s := by
  obtain ⟨s, h⟩ := C70_opens threeFrames twoFiles [] 0 (by decide) twoFiles_hasPT
    (fun _ => ⟨3, rfl, by decide⟩) ⟨fun _ _ => rfl, fun _ _ _ => rfl⟩
  exact ⟨s, .start s h⟩

/-- Of the two files only the first can be opened. -/
def firstOnly : Env where
  opens f := if f = "dump-Trimer-P1.00-T0.40-ID1.gsd".toList then .ok 3 else .error .runtimeError
  readErr _ _ := none
  dataErr _ _ _ := none

/-- The files in nested dictionaries. -/
def twoTree : Tree :=
  [("1.00".toList, [("0.40".toList, [("None".toList,
    [("1".toList, "dump-Trimer-P1.00-T0.40-ID1.gsd".toList),
     ("2".toList, "dump-Trimer-P1.00-T0.40-ID2.gsd".toList)])])])]

theorem twoFiles_tree : parseDirectory twoFiles = .ok twoTree := by rfl

theorem sortedKeys_sorted {ν : Type} (d : Dict Str ν)
    (h : (d.map Prod.fst).Pairwise (fun a b => decide (a ≤ b) = true)) :
    sortedKeys d = d.map Prod.fst := List.mergeSort_of_pairwise h

/-- The viewer before a trajectory is open. -/
def twoBlank : State :=
  blank twoTree ["1.00".toList] ["0.40".toList] ["None".toList] ["1".toList, "2".toList]
    "0.40".toList "1".toList [] 0

theorem twoFiles_init : initDirectory twoTree [] 0 = .ok twoBlank := by
  have h1 : sortedKeys twoTree = ["1.00".toList] := sortedKeys_sorted _ (by decide)
  have h2 : sortedKeys [("0.40".toList, [("None".toList,
      [("1".toList, "dump-Trimer-P1.00-T0.40-ID1.gsd".toList),
       ("2".toList, "dump-Trimer-P1.00-T0.40-ID2.gsd".toList)])])] = ["0.40".toList] :=
    sortedKeys_sorted _ (by decide)
  have h3 : sortedKeys [("None".toList,
      [("1".toList, "dump-Trimer-P1.00-T0.40-ID1.gsd".toList),
       ("2".toList, "dump-Trimer-P1.00-T0.40-ID2.gsd".toList)])] = ["None".toList] :=
    sortedKeys_sorted _ (by decide)
  have h4 : sortedKeys [("1".toList, "dump-Trimer-P1.00-T0.40-ID1.gsd".toList),
       ("2".toList, "dump-Trimer-P1.00-T0.40-ID2.gsd".toList)] = ["1".toList, "2".toList] :=
    sortedKeys_sorted _ (by decide)
  have e1 : key twoTree "1.00".toList = .ok [("0.40".toList, [("None".toList,
      [("1".toList, "dump-Trimer-P1.00-T0.40-ID1.gsd".toList),
       ("2".toList, "dump-Trimer-P1.00-T0.40-ID2.gsd".toList)])])] := by rfl
  have e2 : key [("0.40".toList, [("None".toList,
      [("1".toList, "dump-Trimer-P1.00-T0.40-ID1.gsd".toList),
       ("2".toList, "dump-Trimer-P1.00-T0.40-ID2.gsd".toList)])])] "0.40".toList =
      .ok [("None".toList, [("1".toList, "dump-Trimer-P1.00-T0.40-ID1.gsd".toList),
       ("2".toList, "dump-Trimer-P1.00-T0.40-ID2.gsd".toList)])] := by rfl
  have e3 : key [("None".toList, [("1".toList, "dump-Trimer-P1.00-T0.40-ID1.gsd".toList),
       ("2".toList, "dump-Trimer-P1.00-T0.40-ID2.gsd".toList)])] "None".toList =
      .ok [("1".toList, "dump-Trimer-P1.00-T0.40-ID1.gsd".toList),
       ("2".toList, "dump-Trimer-P1.00-T0.40-ID2.gsd".toList)] := by rfl
  have a0 : ∀ (x : Str) (l : List Str), at' (x :: l) 0 = .ok x := fun _ _ => rfl
  unfold initDirectory
  rw [h1, a0]
  simp only
  rw [e1]
  simp only
  rw [h2, a0]
  simp only
  rw [e2]
  simp only
  rw [h3, a0]
  simp only
  rw [e3]
  simp only
  rw [h4, a0]
  rfl

/-- C70, clause on the open trajectory: choosing a file that cannot be opened leaves the trajectory
of another file open. -/
theorem C70_open_refuted : ∃ (s : State) (p t c i f g : Str) (n : Nat),
    Reachable firstOnly twoFiles [] 0 s ∧ Selected s p t c i ∧ Under f p t c i ∧ f ∈ twoFiles ∧
    s.trajectory = some (g, n) ∧ ¬ Under g p t c i := by
  have hr : AllRead firstOnly := ⟨fun _ _ => rfl, fun _ _ _ => rfl⟩
  obtain ⟨f, hfull, hsl, -⟩ := initDirectory_inv (parseDirectory_wf twoFiles_tree) twoFiles_init
  have hf : f = "dump-Trimer-P1.00-T0.40-ID1.gsd".toList := by
    have h1 := selectedFile_ok hfull
    have h2 : twoBlank.selectedFile = .ok "dump-Trimer-P1.00-T0.40-ID1.gsd".toList := by rfl
    rw [h2] at h1
    cases h1
    rfl
  subst hf
  have hup := updateTrajectory_fresh firstOnly hr hfull hsl (n := 3) rfl (by decide)
  have hcreate : create firstOnly twoFiles [] 0 = .ok (initDoc (initMedia
      (updateTrajectory firstOnly twoBlank).1)) := by
    unfold create
    simp only [twoFiles_tree, twoFiles_init, hup]
  rw [hup] at hcreate
  have hreach := Reachable.step _ (.iteration "2".toList) (Reachable.start _ hcreate)
    (by change "2".toList ∈ ["1".toList, "2".toList]; decide)
  refine ⟨_, "1.00".toList, "0.40".toList, "None".toList, "2".toList,
    "dump-Trimer-P1.00-T0.40-ID2.gsd".toList, "dump-Trimer-P1.00-T0.40-ID1.gsd".toList, 3, hreach,
    ⟨by rfl, by rfl, by rfl, by rfl⟩, twoFiles_under2, by decide, by rfl, ?_⟩
  intro h
  have := (Under.unique h twoFiles_under1).2.2.2
  exact absurd this (by decide)

/-! ## C71 -/

/-- C71.  In every reachable state exactly one callback of the viewer is registered when playing and
none when paused; callbacks of others are left alone. -/
theorem C71_timers (files : List Str) (timers : List Nat) (fresh : Nat) (s : State)
    (hf : ∀ t ∈ timers, t < fresh) (h : Reachable env files timers fresh s) :
    (s.playing = true → ∃ c, s.callback = some c ∧ c ∉ timers ∧ s.timers = timers ++ [c]) ∧
    (s.playing = false → s.timers = timers) := by
  rcases reachable_timed env hf h with ⟨h1, h2, -⟩ | ⟨h1, c, h2, h3, h4, -⟩
  · exact ⟨fun h => absurd (h1.symm.trans h) (by decide), fun _ => h2⟩
  · exact ⟨fun _ => ⟨c, h2, h4, h3⟩, fun h => absurd (h1.symm.trans h) (by decide)⟩

/-- C71.  A click never fails and changes between playing and paused; nothing else does. -/
theorem C71_click (files : List Str) (timers : List Nat) (fresh : Nat) (s : State)
    (hf : ∀ t ∈ timers, t < fresh) (h : Reachable env files timers fresh s) :
    (Event.playPause.handle env s).2 = none ∧
    (Event.playPause.handle env s).1.playing = !s.playing ∧
    ∀ e : Event, e ≠ .playPause → (e.handle env s).1.playing = s.playing := by
  have ht := reachable_timed env hf h
  refine ⟨(playPause_timed ht).2.2, (playPause_timed ht).2.1, ?_⟩
  intro e he
  exact congrArg Prod.fst (tim_keeps env e he s)

/-- C71.  After any history the viewer is playing when the number of clicks is odd, and paused
when it is even. -/
theorem C71_history (files : List Str) (timers : List Nat) (fresh : Nat) (s : State)
    (hf : ∀ t ∈ timers, t < fresh) (h : create env files timers fresh = .ok s) (l : List Event)
    (hl : Possible env s l) :
    (after env s l).playing = decide (clicks l % 2 = 1) ∧
    (after env s l).timers.length = timers.length + clicks l % 2 := by
  have key : ∀ (l : List Event) (s : State), Reachable env files timers fresh s →
      Possible env s l →
      (after env s l).playing = (s.playing ^^ decide (clicks l % 2 = 1)) ∧
        Reachable env files timers fresh (after env s l) := by
    intro l
    induction l with
    | nil =>
      intro s hs _
      exact ⟨by simp [after, clicks], hs⟩
    | cons e l ih =>
      intro s hs hp
      obtain ⟨he, hp⟩ := hp
      obtain ⟨h1, h2⟩ := ih _ (.step s e hs he) hp
      refine ⟨?_, h2⟩
      simp only [after]
      rw [h1]
      obtain ⟨-, h3, h4⟩ := C71_click env files timers fresh s hf hs
      by_cases hc : e = .playPause
      · subst hc
        rw [h3]
        have : clicks (Event.playPause :: l) = clicks l + 1 := by simp [clicks]
        rw [this]
        rcases Nat.mod_two_eq_zero_or_one (clicks l) with h | h
        · have h' : (clicks l + 1) % 2 = 1 := by omega
          simp [h, h']
        · have h' : (clicks l + 1) % 2 = 0 := by omega
          simp [h, h']
      · rw [h4 e hc]
        have : clicks (e :: l) = clicks l := by
          cases e <;> simp_all [clicks]
        rw [this]
  have hs0 : s.playing = false := by
    obtain ⟨tree, s0, f, n, h1, h2, h3, h4, h7, h8, h9, h5, h6, rfl⟩ := create_inv env h
    have := congrArg (fun x => x.2.1.1) (updateTrajectory_fixed env s0)
    simp only [fixed, tim] at this
    simp only [initDoc, initMedia]
    rw [this, h7]
  obtain ⟨h1, h2⟩ := key l s (.start s h) hl
  rw [hs0] at h1
  simp only [Bool.false_xor] at h1
  refine ⟨h1, ?_⟩
  obtain ⟨h3, h4⟩ := C71_timers env files timers fresh _ hf h2
  rcases Nat.mod_two_eq_zero_or_one (clicks l) with h | h
  · rw [h4 (by rw [h1, h]; rfl), h]
    simp
  · obtain ⟨c, -, -, hc⟩ := h3 (by rw [h1, h]; rfl)
    rw [hc, h]
    simp

example : ∃ s, create threeFrames twoFiles [5] 6 = .ok s ∧
    Possible threeFrames s [.playPause, .next, .playPause, .playPause] := by
  obtain ⟨s, h⟩ := C70_opens threeFrames twoFiles [5] 6 (by decide) twoFiles_hasPT
    (fun _ => ⟨3, rfl, by decide⟩) ⟨fun _ _ => rfl, fun _ _ _ => rfl⟩
  exact ⟨s, h, trivial, trivial, trivial, trivial, trivial⟩

/-! ## C69 -/

/-- C69 fails in every directory: opening it and sliding to the end asks for a frame beyond the last
one, because the slider ends at the number of frames. -/
theorem C69_refuted (files : List Str) (timers : List Nat) (fresh : Nat) (hne : files ≠ [])
    (hpt : ∀ f ∈ files, HasPT f) (ho : AllOpen env) (hr : AllRead env) :
    ∃ (s : State) (e : Event), Reachable env files timers fresh s ∧ e.enabled s ∧
      (e.handle env s).2 = some .indexError ∧
      ∃ f n, (e.handle env s).1.trajectory = some (f, n) ∧ (e.handle env s).1.index = n := by
  obtain ⟨tree, ht⟩ := (Names.C58_succeeds files).2 hpt
  obtain ⟨s, f, n, h, h1, h2⟩ := create_ok env ht (tree_ne_nil ht hne) ho hr timers fresh
  obtain ⟨f', n', v, e, h3, h4, h5, -⟩ := reachable_placed env ho hr (.start s h)
  rw [h1] at h3
  cases h3
  rw [h2] at h5
  cases h5
  have hset : setSlider env n s = ({ s with slider := some ⟨n, n⟩ }, some .indexError) := by
    unfold setSlider
    rw [h2]
    simp only
    rw [if_neg (by omega)]
    exact updateFrame_out env (s := { s with slider := some ⟨n, n⟩ }) h1
      (by simp only [State.index]; omega) (by simp only [State.index]; omega)
  refine ⟨s, .slide n, .start s h, ⟨_, h2, by omega, le_refl _⟩, ?_⟩
  simp only [Event.handle]
  rw [hset]
  exact ⟨rfl, f, n, h1, rfl⟩

/-- C69, proved part.  Full statement: in every reachable state the slider is at a frame of the open
trajectory (and that frame is shown).  Proved: the slider is there or one place beyond the last
frame, and when it is at a frame, that one is shown; `C69_refuted` gives the other case. -/
theorem C69_partial (files : List Str) (timers : List Nat) (fresh : Nat) (s : State)
    (ho : AllOpen env) (hr : AllRead env) (h : Reachable env files timers fresh s) :
    ShowsIndex s ∨ ∃ f n, s.trajectory = some (f, n) ∧ s.index = n := by
  obtain ⟨f, n, v, e, h1, h2, h3, h4, h5, h6, h7, h8⟩ := reachable_placed env ho hr h
  have hix : s.index = v := by simp only [State.index, h3]
  by_cases hlt : v < n
  · obtain ⟨h9, h10⟩ := h8 hlt
    exact Or.inl ⟨f, n, v.toNat, h1, by omega, by rw [hix]; omega, h9, h10⟩
  · exact Or.inr ⟨f, n, h1, by rw [hix]; omega⟩

/-- C69, proved part: once the slider ends at the last frame, as it does after a choice of a
file (`C69_choice_partial`), no sequence of slider moves, next, previous, play ticks or changes of the classification
algorithm leaves the trajectory. -/
theorem C69_range_partial (files : List Str) (timers : List Nat) (fresh : Nat) (s : State)
    (ho : AllOpen env) (hr : AllRead env) (h : Reachable env files timers fresh s)
    (h1 : EndsAtLast s) (h2 : ShowsIndex s) (l : List Event) (hl : Possible env s l)
    (hs : ∀ e ∈ l, ¬ e.selects) : EndsAtLast (after env s l) ∧ ShowsIndex (after env s l) := by
  induction l generalizing s with
  | nil => exact ⟨h1, h2⟩
  | cons e l ih =>
    obtain ⟨he, hl⟩ := hl
    have hse := hs e (by simp)
    have hreach := Reachable.step s e h he
    have hinc := reachable_increment env h
    have hto := other_sel env e hse s
    simp only [Prod.mk.injEq] at hto
    obtain ⟨f, n, sl, ht, hsl, hend⟩ := h1
    obtain ⟨f', n', i, ht', hi, hix, -⟩ := h2
    rw [ht] at ht'
    cases ht'
    have hv : sl.value = i := by
      simp only [State.index, hsl] at hix
      exact hix
    -- the slider keeps its end and stays in range
    have hslider : ∃ sl', (e.handle env s).1.slider = some sl' ∧ sl'.finish = (n : Int) - 1 ∧
        sl'.value < n := by
      have hset : ∀ v : Int, v ≤ (n : Int) - 1 → ∃ sl', (setSlider env v s).1.slider = some sl' ∧
          sl'.finish = (n : Int) - 1 ∧ sl'.value < n := by
        intro v hv'
        unfold setSlider
        rw [hsl]
        simp only
        split
        · exact ⟨sl, hsl, hend, by omega⟩
        · have := congrArg Prod.snd (updateFrame_keeps env
            { s with slider := some { sl with value := v } })
          simp only at this
          exact ⟨_, this, hend, by simp only; omega⟩
      have hstay : ∃ sl', s.slider = some sl' ∧ sl'.finish = (n : Int) - 1 ∧ sl'.value < n :=
        ⟨sl, hsl, hend, by omega⟩
      cases e with
      | pressure i => simp [Event.selects] at hse
      | temperature v => simp [Event.selects] at hse
      | crystal i => simp [Event.selects] at hse
      | iteration v => simp [Event.selects] at hse
      | slide v =>
        obtain ⟨sl', h3, h4, h5⟩ := he
        rw [hsl] at h3
        cases h3
        exact hset v (by omega)
      | next =>
        simp only [Event.handle, incrIndex, hsl]
        split
        · exact hset _ (by rw [hend]; exact min_le_right _ _)
        · exact hstay
      | tick =>
        simp only [Event.handle, incrIndex, hsl]
        split
        · exact hset _ (by rw [hend]; exact min_le_right _ _)
        · exact hstay
      | previous =>
        simp only [Event.handle, decrIndex, hsl]
        split
        · exact hset _ (max_le (by omega) (by omega))
        · exact hstay
      | increment k => exact hstay
      | order k =>
        simp only [Event.handle]
        have := congrArg Prod.snd (updateFrame_keeps env { s with oActive := k })
        simp only at this
        rw [this]
        exact hstay
      | playPause =>
        have := congrArg (fun x => x.2.2.1) (playPause_sel s)
        simp only at this
        simp only [Event.handle]
        rw [this]
        exact hstay
    obtain ⟨sl', hs1, hs2, hs3⟩ := hslider
    have ht2 : (e.handle env s).1.trajectory = some (f, n) := by rw [hto.2, ht]
    refine ih _ hreach ⟨f, n, sl', ht2, hs1, hs2⟩ ?_ hl (fun e he => hs e (by simp [he]))
    rcases C69_partial env files timers fresh _ ho hr hreach with h3 | ⟨f3, n3, h3, h4⟩
    · exact h3
    · rw [ht2] at h3
      cases h3
      simp only [State.index, hs1] at h4
      omega

/-- C69, proved part: after choosing a file the slider ends at the last frame, and it is at a frame
that is shown unless it was at the place numbered by the new number of frames. -/
theorem C69_choice_partial (files : List Str) (timers : List Nat) (fresh : Nat) (s : State)
    (ho : AllOpen env) (hr : AllRead env) (h : Reachable env files timers fresh s) (e : Event)
    (he : e.enabled s) (hs : e.selects) :
    e.handle env s = (s, none) ∨
      EndsAtLast (e.handle env s).1 ∧ (ShowsIndex (e.handle env s).1 ∨
        ∃ f n, (e.handle env s).1.trajectory = some (f, n) ∧ (e.handle env s).1.index = n) := by
  have hstep := C69_partial env files timers fresh _ ho hr (.step s e h he)
  have hpl := reachable_placed env ho hr h
  obtain ⟨⟨f, hf, -⟩, -⟩ := reachable_good env h
  rcases selects_prop env (fun s => Placed s ∧ EndsAtLast s)
    (fun o => ∃ sl, o = some sl ∧ 0 ≤ sl.value)
    (fun s f hf ⟨sl, h1, h2⟩ => updateTrajectory_placed env hr ho hf h1 h2)
    (fun s ⟨⟨f, n, v, e, _, _, hsl, hv, _⟩, _⟩ => ⟨_, hsl, hv⟩) hf
    (by obtain ⟨f, n, v, e, _, _, hsl, hv, _⟩ := hpl; exact ⟨_, hsl, hv⟩) e hs he with h1 | h1
  · exact Or.inl h1
  · exact Or.inr ⟨h1.1.2, hstep⟩

/-- The state after opening the two files of three frames and choosing the second. -/
example : ∃ s, Reachable threeFrames twoFiles [] 0 s ∧ EndsAtLast s ∧ ShowsIndex s ∧
    Possible threeFrames s [.next, .previous, .slide 2] := by
  have ho : AllOpen threeFrames := fun _ => ⟨3, rfl, by decide⟩
  have hr : AllRead threeFrames := ⟨fun _ _ => rfl, fun _ _ _ => rfl⟩
  obtain ⟨f, hfull, hsl, -⟩ := initDirectory_inv (parseDirectory_wf twoFiles_tree) twoFiles_init
  have hup := updateTrajectory_fresh threeFrames hr hfull hsl (n := 3) rfl (by decide)
  have hcreate : create threeFrames twoFiles [] 0 = .ok (initDoc (initMedia
      (updateTrajectory threeFrames twoBlank).1)) := by
    unfold create
    simp only [twoFiles_tree, twoFiles_init, hup]
  rw [hup] at hcreate
  have hreach := Reachable.step _ (.iteration "2".toList) (Reachable.start _ hcreate)
    (by change "2".toList ∈ ["1".toList, "2".toList]; decide)
  refine ⟨_, hreach, ?_, ?_, ?_⟩
  · exact ⟨"dump-Trimer-P1.00-T0.40-ID2.gsd".toList, 3, ⟨0, 2⟩, by rfl, by rfl, by rfl⟩
  · exact ⟨"dump-Trimer-P1.00-T0.40-ID2.gsd".toList, 3, 0, by rfl, by decide, by rfl, by rfl, by rfl⟩
  · exact ⟨trivial, trivial, ⟨⟨0, 2⟩, by rfl, by decide, by decide⟩, trivial⟩

end Verif.Viewer
