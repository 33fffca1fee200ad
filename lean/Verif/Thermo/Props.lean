import Mathlib.Data.List.Perm.Subperm
import Verif.Thermo.Spec
/-!
# Property C109: the thermodynamics dashboard
-/

namespace Verif.Thermo

variable {V : Type}

/-! ## helpers -/

theorem attr_ok (df : DF V) (q : String) (h : (Dict.get? df q).isSome) :
    ∃ v, attr df q = .ok v ∧ Dict.get? df q = some v := by
  obtain ⟨v, hv⟩ := Option.isSome_iff_exists.1 h
  exact ⟨v, by simp [attr, hv], hv⟩

/-- The third column of a complete table exists and can be looked up. -/
theorem third {df : DF V} (h : Complete df) : ∃ k, (df.map Prod.fst)[2]? = some k ∧
    (Dict.get? df k).isSome := by
  have hsub : ["timestep", "temperature", "pressure", "potential_energy", "kinetic_energy"] ⊆
      df.map Prod.fst := by
    intro q hq
    obtain ⟨v, hv⟩ := Option.isSome_iff_exists.1 (h.2 q hq)
    exact List.mem_map_of_mem (f := Prod.fst) (Dict.mem_of_get? _ _ _ hv)
  have hlen := (List.subperm_of_subset (by decide) hsub).length_le
  simp only [List.length_cons, List.length_nil] at hlen
  have hlt : 2 < (df.map Prod.fst).length := by omega
  refine ⟨(df.map Prod.fst)[2], List.getElem?_eq_getElem hlt, ?_⟩
  have hlt' : 2 < df.length := by simpa using hlt
  rw [List.getElem_map, Dict.get?_of_mem df h.1 df[2] (List.getElem_mem hlt')]
  rfl

theorem updateData_ok {s : St V} (h : Complete s.df) {y : V} (hy : Dict.get? s.df s.factor = some y) :
    ∃ x t p u k, Dict.get? s.df "timestep" = some x ∧ Dict.get? s.df "temperature" = some t ∧
      Dict.get? s.df "pressure" = some p ∧ Dict.get? s.df "potential_energy" = some u ∧
      Dict.get? s.df "kinetic_energy" = some k ∧
      updateData s = ({ s with
        defaults := [("x", x), ("temperature", t), ("pressure", p), ("potential_energy", u),
          ("kinetic_energy", k)]
        data := [("x", x), ("y", y)] }, none) := by
  obtain ⟨x, hx, hx'⟩ := attr_ok s.df "timestep" (h.2 _ (by simp))
  obtain ⟨t, ht, ht'⟩ := attr_ok s.df "temperature" (h.2 _ (by simp))
  obtain ⟨p, hp, hp'⟩ := attr_ok s.df "pressure" (h.2 _ (by simp))
  obtain ⟨u, hu, hu'⟩ := attr_ok s.df "potential_energy" (h.2 _ (by simp))
  obtain ⟨k, hk, hk'⟩ := attr_ok s.df "kinetic_energy" (h.2 _ (by simp))
  refine ⟨x, t, p, u, k, hx', ht', hp', hu', hk', ?_⟩
  simp only [updateData, defaultData, hx, ht, hp, hu, hk, hy]

/-- What the dashboard keeps up when nothing goes wrong: besides showing the right data, the options are
those of the directory and the table. -/
structure Fine (disk : Disk V) (s : St V) : Prop where
  shows : Shows disk s
  options : s.fileOptions = disk.glob s.dir
  factors : s.factorOptions = s.df.map Prod.fst
  complete : Complete s.df
  table : disk.read s.dir s.file = .ok s.df
  keys : s.defaults.map Prod.fst =
    ["x", "temperature", "pressure", "potential_energy", "kinetic_energy"]

theorem fine_of {disk : Disk V} {s : St V} (hfile : s.file ∈ disk.glob s.dir)
    (ho : s.fileOptions = disk.glob s.dir) (hf : s.factorOptions = s.df.map Prod.fst)
    (hc : Complete s.df) (hread : disk.read s.dir s.file = .ok s.df) (hy : (Dict.get? s.df s.factor).isSome) :
    (updateData s).2 = none ∧ Fine disk (updateData s).1 := by
  obtain ⟨y, hy⟩ := Option.isSome_iff_exists.1 hy
  obtain ⟨x, t, p, u, k, hx, ht, hp, hu, hk, hup⟩ := updateData_ok hc hy
  rw [hup]
  refine ⟨rfl, ⟨hfile, s.df, hread, ?_, ?_, ?_, ?_⟩, ho, hf, hc, hread, rfl⟩
  · simp [Dict.get?, hx]
  · intro q hq
    simp only [List.mem_cons, List.not_mem_nil, or_false] at hq
    rcases hq with rfl | rfl | rfl | rfl
    · rw [ht]; rfl
    · rw [hp]; rfl
    · rw [hu]; rfl
    · rw [hk]; rfl
  · simp [Dict.get?, hx]
  · simp [Dict.get?, hy]

/-- `update_file` on a good file. -/
theorem updateFile_fine {disk : Disk V} (hg : Good disk) {s : St V} (hfile : s.file ∈ disk.glob s.dir)
    (ho : s.fileOptions = disk.glob s.dir) :
    (updateFile disk s s.file).2 = none ∧ Fine disk (updateFile disk s s.file).1 ∧
      (updateFile disk s s.file).1.file = s.file ∧ (updateFile disk s s.file).1.dir = s.dir := by
  obtain ⟨df, hread, hc⟩ := hg.reads s.dir s.file hfile
  obtain ⟨k, hk, hky⟩ := third hc
  have key : ∀ s' : St V, s'.file = s.file → s'.dir = s.dir → s'.fileOptions = s.fileOptions → s'.df = df →
      s'.factorOptions = df.map Prod.fst → s'.factor = k →
      (updateData s').2 = none ∧ Fine disk (updateData s').1 ∧ (updateData s').1.file = s.file ∧
        (updateData s').1.dir = s.dir := by
    intro s' h1 h2 h3 h4 h5 h6
    obtain ⟨y, hy⟩ := Option.isSome_iff_exists.1 hky
    have hy' : Dict.get? s'.df s'.factor = some y := by rw [h4, h6, hy]
    obtain ⟨f1, f2⟩ := fine_of (disk := disk) (s := s') (by rw [h1, h2]; exact hfile) (by rw [h3, h2, ho])
      (by rw [h5, h4]) (by rw [h4]; exact hc) (by rw [h1, h2, h4]; exact hread) (by rw [h4, h6]; exact hky)
    refine ⟨f1, f2, ?_, ?_⟩
    · obtain ⟨x, t, p, u, k', _, _, _, _, _, hup⟩ := updateData_ok (s := s') (by rw [h4]; exact hc) hy'
      rw [hup]; exact h1
    · obtain ⟨x, t, p, u, k', _, _, _, _, _, hup⟩ := updateData_ok (s := s') (by rw [h4]; exact hc) hy'
      rw [hup]; exact h2
  unfold updateFile
  rw [hread]
  simp only [updateFactors, hk, setFactor]
  by_cases hsame : k = s.factor
  · simp only [if_pos hsame]
    exact key _ rfl rfl rfl rfl rfl hsame.symm
  · simp only [if_neg hsame]
    obtain ⟨y, hy⟩ := Option.isSome_iff_exists.1 hky
    obtain ⟨x, t, p, u, k', _, _, _, _, _, hup⟩ := updateData_ok
      (s := { s with df := df, factorOptions := df.map Prod.fst, factor := k }) hc hy
    rw [hup]
    exact key _ rfl rfl rfl rfl rfl rfl

/-! ## the property -/

/-- The full property: in directories with good files, whatever the user does with the widgets, the data
shown are those of the directory, file and quantity chosen. -/
def AlwaysShows (V : Type) : Prop :=
  ∀ (disk : Disk V) (es : List Event), Good disk → AllOffered disk (start disk).1 es →
    Shows disk (run disk (start disk).1 es)

/-- A change of the directory to one with none of the old names. -/
theorem setDir_fine {disk : Disk V} (hg : Good disk) {s : St V} (new : String)
    (hold : s.file ∉ disk.glob new) :
    (updateFileList disk { s with dir := new } new).2 = none ∧
      Fine disk (updateFileList disk { s with dir := new } new).1 := by
  obtain ⟨first, rest, hopt⟩ := List.exists_cons_of_ne_nil (hg.files new)
  have hmem : first ∈ disk.glob new := by rw [hopt]; simp
  have hne : first ≠ s.file := fun h => hold (h ▸ hmem)
  obtain ⟨f1, f2, -, -⟩ := updateFile_fine hg
    (s := { s with dir := new, fileOptions := disk.glob new, file := first }) hmem rfl
  simp only [updateFileList]
  simp only [hold, if_false]
  generalize hgl : disk.glob new = opts at *
  subst hopt
  simp only [setFile, if_neg hne]
  generalize updateFile disk { s with dir := new, fileOptions := first :: rest, file := first } first = r at *
  obtain ⟨s', e⟩ := r
  simp only at f1
  subst f1
  exact ⟨rfl, f2⟩

/-- **C109**, proved part: it is so when no two directories have a file of the same name.  No callback
raises then. -/
theorem C109_shows_partial (disk : Disk V) (hg : Good disk)
    (hnames : ∀ d d' f, f ∈ disk.glob d → f ∈ disk.glob d' → d = d') (es : List Event) :
    (start disk).2 = none ∧ (AllOffered disk (start disk).1 es →
      Shows disk (run disk (start disk).1 es)) := by
  obtain ⟨h0, hstart⟩ := setDir_fine hg (s := (initial : St V)) "." (fun h => hg.named _ _ h rfl)
  refine ⟨h0, ?_⟩
  have key : ∀ (es : List Event) (s : St V), Fine disk s → AllOffered disk s es →
      Fine disk (run disk s es) := by
    intro es
    induction es with
    | nil => intro s hs _; exact hs
    | cons e es ih =>
      intro s hs ho
      refine ih _ ?_ ho.2
      cases e with
      | dir new =>
        simp only [step, setDir]
        split
        · exact hs
        · rename_i hne
          exact (setDir_fine hg new (fun h => hne (hnames _ _ _ h hs.shows.1))).2
      | file new =>
        simp only [step, setFile]
        split
        · exact hs
        · have hin : new ∈ disk.glob s.dir := by rw [← hs.options]; exact ho.1
          exact (updateFile_fine hg (s := { s with file := new }) hin hs.options).2.1
      | factor new =>
        simp only [step, setFactor]
        split
        · exact hs
        · have hin : new ∈ s.df.map Prod.fst := by rw [← hs.factors]; exact ho.1
          obtain ⟨p, hp, rfl⟩ := List.mem_map.1 hin
          refine (fine_of (s := { s with factor := p.1 }) hs.shows.1 hs.options hs.factors hs.complete hs.table ?_).2
          rw [Dict.get?_of_mem s.df hs.complete.1 p hp]
          rfl
  exact fun ho => (key es _ hstart ho).shows

/-- A table with one number throughout. -/
def flat (v : ℕ) : DF ℕ := [("timestep", v), ("temperature", v), ("pressure", v), ("potential_energy", v),
  ("kinetic_energy", v)]

theorem flat_complete (v : ℕ) : Complete (flat v) :=
  ⟨(by decide : ((flat 0).map Prod.fst).Nodup), by
    intro q hq
    simp only [List.mem_cons, List.not_mem_nil, or_false] at hq
    rcases hq with rfl | rfl | rfl | rfl | rfl <;> rfl⟩

/-- Every directory has one file, of the same name in all of them, with other values in `.` than elsewhere. -/
def twoRuns : Disk ℕ := ⟨fun _ => ["thermo.dat"], fun d _ => .ok (flat (if d = "." then 0 else 1))⟩

theorem twoRuns_good : Good twoRuns where
  files := by intro d h; cases h
  reads := fun d f _ => ⟨_, rfl, flat_complete _⟩
  named := by
    intro d f hf
    simp only [twoRuns, List.mem_singleton] at hf
    subst hf
    decide

/-- The hypotheses of `C109_shows_partial`: a file for every directory with its own name, and a user who
changes the directory, the quantity and the directory again. -/
example : ∃ disk : Disk ℕ, Good disk ∧ (∀ d d' f, f ∈ disk.glob d → f ∈ disk.glob d' → d = d') ∧
    AllOffered disk (start disk).1 [.dir "a", .factor "temperature", .dir "b"] := by
  refine ⟨⟨fun d => ["thermo" ++ d], fun _ _ => .ok (flat 3)⟩, ⟨?_, ?_, ?_⟩, ?_, ?_⟩
  · intro d h; cases h
  · exact fun d f _ => ⟨_, rfl, flat_complete _⟩
  · intro d f hf
    simp only [List.mem_singleton] at hf
    subst hf
    intro h
    have := congrArg String.length h
    rw [String.length_append] at this
    simp at this
  · intro d d' f h h'
    simp only [List.mem_singleton] at h h'
    have h'' := congrArg String.toList (h.symm.trans h')
    simp only [String.toList_append, List.append_cancel_left_eq] at h''
    exact String.toList_injective h''
  · exact ⟨trivial, by unfold Offered; decide, trivial, trivial⟩

/-- C109 in full is false: with a file of the same name in the new directory, the value of `fname` does not
change, so the file is not read and the data of the old directory stay. -/
theorem C109_shows_refuted : ¬ AlwaysShows ℕ := by
  intro h
  obtain ⟨-, df, h1, h2, -⟩ := h twoRuns [.dir "other"] twoRuns_good ⟨trivial, trivial⟩
  have e1 : df = flat 1 := by
    have : (Except.ok df : Except PyErr (DF ℕ)) = .ok (flat 1) := by rw [← h1]; rfl
    exact Except.ok.inj this
  subst e1
  revert h2
  decide

/-- In general: a directory with a file of the current name changes nothing but the options. -/
theorem C109_same_name (disk : Disk V) (s : St V) (new : String) (h : s.file ∈ disk.glob new)
    (hne : new ≠ s.dir) :
    step disk s (.dir new) = ({ s with dir := new, fileOptions := disk.glob new }, none) := by
  obtain ⟨first, rest, hopt⟩ := List.exists_cons_of_ne_nil (List.ne_nil_of_mem h)
  have h' : s.file ∈ first :: rest := hopt ▸ h
  simp only [step, setDir, if_neg hne, updateFileList]
  rw [hopt]
  simp only [if_pos h', setFile, if_true]

/-- A directory without files changes nothing but the options: the old file stays on display. -/
theorem C109_no_files (disk : Disk V) (s : St V) (new : String) (h : disk.glob new = [])
    (hne : new ≠ s.dir) :
    step disk s (.dir new) = ({ s with dir := new, fileOptions := [] }, none) := by
  simp only [step, setDir, if_neg hne, updateFileList, h]

/-- A table of fewer than three columns is an IndexError of `update_factors`.  When it comes from a change
of the directory it is taken for an empty list of files: the file is displayed as chosen, with the data
of the old one, and nothing is reported. -/
theorem C109_few_columns (disk : Disk V) (s : St V) (new first : String) (rest : List String) (df : DF V)
    (hopt : disk.glob new = first :: rest) (hold : s.file ∉ disk.glob new)
    (hread : disk.read new first = .ok df) (hfew : df.length < 3) (hne : new ≠ s.dir) :
    (step disk s (.dir new)).2 = none ∧ (step disk s (.dir new)).1.file = first ∧
      (step disk s (.dir new)).1.defaults = s.defaults ∧ (step disk s (.dir new)).1.data = s.data := by
  have hf : first ≠ s.file := by
    intro h; apply hold; rw [hopt, h]; simp
  have hnone : (df.map Prod.fst)[2]? = none := List.getElem?_eq_none (by simp; omega)
  simp only [step, setDir, if_neg hne, updateFileList, if_neg hold]
  rw [hopt]
  simp only [setFile, if_neg hf, updateFile, hread, updateFactors, hnone]
  exact ⟨trivial, trivial, trivial, trivial⟩

/-- The hypotheses of the three theorems above, from the state after the start. -/
example : ∃ disk : Disk ℕ, (start disk).1.file ∈ disk.glob "same" ∧ disk.glob "none" = [] ∧
    (start disk).1.file ∉ disk.glob "few" ∧ disk.glob "few" = ["thermo-2"] ∧
    disk.read "few" "thermo-2" = .ok [("timestep", 1), ("temperature", 2)] ∧ (start disk).1.dir = "." :=
  ⟨⟨fun d => if d = "none" then [] else if d = "few" then ["thermo-2"] else ["thermo-1"],
    fun d _ => .ok (if d = "few" then [("timestep", 1), ("temperature", 2)] else flat 0)⟩,
    by decide, by decide, by decide, by decide, rfl, rfl⟩

/-- What goes wrong is reported and leaves the plotted data alone: a file that cannot be read, whether chosen
by name or the first of a new directory (there only an IndexError is swallowed), and a quantity that the
table does not have, for which the first tab is brought up to date all the same. -/
theorem C109_reports (disk : Disk V) (s : St V) (new : String) :
    (∀ e, disk.read s.dir new = .error e → new ≠ s.file →
      step disk s (.file new) = ({ s with file := new }, some e)) ∧
    (∀ first rest e, disk.glob new = first :: rest → s.file ∉ disk.glob new → new ≠ s.dir →
      disk.read new first = .error e →
      step disk s (.dir new) = ({ s with dir := new, fileOptions := first :: rest, file := first },
        if e = .indexError then none else some e)) ∧
    (Complete s.df → Dict.get? s.df new = none → new ≠ s.factor →
      (step disk s (.factor new)).2 = some .keyError ∧ (step disk s (.factor new)).1.data = s.data ∧
      (step disk s (.factor new)).1.factor = new ∧
      ∀ q ∈ ["temperature", "pressure", "potential_energy", "kinetic_energy"],
        Dict.get? (step disk s (.factor new)).1.defaults q = Dict.get? s.df q) := by
  refine ⟨?_, ?_, ?_⟩
  · intro e he hne
    simp only [step, setFile, if_neg hne, updateFile, he]
  · intro first rest e hopt hold hne he
    have hf : first ≠ s.file := by
      intro h; apply hold; rw [hopt, h]; simp
    simp only [step, setDir, if_neg hne, updateFileList, if_neg hold]
    rw [hopt]
    simp only [setFile, if_neg hf, updateFile, he]
    cases e <;> rfl
  · intro hc hnone hne
    obtain ⟨x, hx, hx'⟩ := attr_ok s.df "timestep" (hc.2 _ (by simp))
    obtain ⟨t, ht, ht'⟩ := attr_ok s.df "temperature" (hc.2 _ (by simp))
    obtain ⟨p, hp, hp'⟩ := attr_ok s.df "pressure" (hc.2 _ (by simp))
    obtain ⟨u, hu, hu'⟩ := attr_ok s.df "potential_energy" (hc.2 _ (by simp))
    obtain ⟨k, hk, hk'⟩ := attr_ok s.df "kinetic_energy" (hc.2 _ (by simp))
    simp only [step, setFactor, if_neg hne, updateData, defaultData, hx, ht, hp, hu, hk, hnone]
    refine ⟨trivial, trivial, trivial, ?_⟩
    intro q hq
    simp only [List.mem_cons, List.not_mem_nil, or_false] at hq
    rcases hq with rfl | rfl | rfl | rfl
    · rw [ht']; rfl
    · rw [hp']; rfl
    · rw [hu']; rfl
    · rw [hk']; rfl

/-- The hypotheses of `C109_reports`: an unreadable file beside a good one, and a quantity not in it. -/
example : ∃ disk : Disk ℕ, disk.read (start disk).1.dir "thermo-bad" = .error .valueError ∧
    "thermo-bad" ≠ (start disk).1.file ∧ (start disk).1.file ∉ disk.glob "bad" ∧
    disk.read "bad" "thermo-bad" = .error .valueError ∧ Complete (start disk).1.df ∧
    Dict.get? (start disk).1.df "volume" = none ∧ "volume" ≠ (start disk).1.factor :=
  ⟨⟨fun d => if d = "bad" then ["thermo-bad"] else ["thermo-1"],
    fun _ f => if f = "thermo-bad" then .error .valueError else .ok (flat 0)⟩,
    rfl, by decide, by decide, rfl, flat_complete 0, rfl, by decide⟩

/-- The plots of the first tab are those of the columns known at the start: all four quantities if the
current directory has a good file, none at all if it has no files, whatever is chosen later. -/
theorem C109_plots (disk : Disk V) :
    (Good disk → plots (start disk).1 =
      ["temperature", "pressure", "potential_energy", "kinetic_energy"]) ∧
    (disk.glob "." = [] → plots (start disk).1 = []) := by
  refine ⟨?_, ?_⟩
  · intro hg
    obtain ⟨-, hstart⟩ := setDir_fine hg (s := (initial : St V)) "." (fun h => hg.named _ _ h rfl)
    have : (start disk).1.defaults.map Prod.fst = _ := hstart.keys
    rw [plots, this]
    decide
  · intro h
    simp only [start, updateFileList, h]
    rfl

end Verif.Thermo
