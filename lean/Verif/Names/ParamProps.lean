import Verif.Names.ParamModel
import Verif.Names.Props
/-!
# Property C108: giving a value to a parameter
-/

namespace Verif.Names

/-- What parameter `key` is to read as after having been given `v`: a path for the three files, with the
current directory in place of no output directory; the value itself for the others. -/
def Reads (cwd : Val) (key : String) (v w : Val) : Prop :=
  if key = "infile" ∨ key = "outfile" ∨ key = "output" then
    (∃ s, (v = .str s ∨ v = .path s) ∧ w = .path s) ∨
      (v = .none ∧ w = if key = "output" then cwd else .none)
  else w = v

/-! ## helpers -/

theorem toPathOpt_ok {v p : Val} (h : toPathOpt v = .ok p) :
    (v = .none ∧ p = .none) ∨ ∃ s, (v = .str s ∨ v = .path s) ∧ p = .path s := by
  cases v with
  | none => left; simpa [toPathOpt, eq_comm] using h
  | str s => right; exact ⟨s, Or.inl rfl, by simpa [toPathOpt, Val.toPath, eq_comm] using h⟩
  | path s => right; exact ⟨s, Or.inr rfl, by simpa [toPathOpt, Val.toPath, eq_comm] using h⟩
  | num x => simp [toPathOpt, Val.toPath] at h
  | obj a => simp [toPathOpt, Val.toPath] at h

theorem initLoop_get (kwargs : List (String × Val)) : ∀ (fs : List (String × Val)) (d d' : Attrs),
    (fs.map (fun p => stored p.1)).Nodup → initLoop kwargs fs d = .ok d' →
    (∀ p ∈ fs, ∃ w, Dict.get? d' (stored p.1) = some w ∧
      if p.1 ∈ fileParams then toPathOpt ((Dict.get? kwargs p.1).getD p.2) = .ok w
      else w = (Dict.get? kwargs p.1).getD p.2) ∧
    ∀ k, k ∉ fs.map (fun p => stored p.1) → Dict.get? d' k = Dict.get? d k
  | [], d, d', _, h => by
    obtain rfl : d = d' := by simpa [initLoop] using h
    simp
  | (k, dflt) :: fs, d, d', hn, h => by
    rw [List.map_cons, List.nodup_cons] at hn
    have step : ∀ p, initLoop kwargs fs (Dict.set d (stored k) p) = .ok d' →
        (if k ∈ fileParams then toPathOpt ((Dict.get? kwargs k).getD dflt) = .ok p
          else p = (Dict.get? kwargs k).getD dflt) →
        (∀ p ∈ (k, dflt) :: fs, ∃ w, Dict.get? d' (stored p.1) = some w ∧
          if p.1 ∈ fileParams then toPathOpt ((Dict.get? kwargs p.1).getD p.2) = .ok w
          else w = (Dict.get? kwargs p.1).getD p.2) ∧
        ∀ j, j ∉ ((k, dflt) :: fs).map (fun p => stored p.1) → Dict.get? d' j = Dict.get? d j := by
      intro p h hp
      obtain ⟨h1, h2⟩ := initLoop_get kwargs fs _ d' hn.2 h
      refine ⟨?_, ?_⟩
      · intro q hq
        rcases List.mem_cons.1 hq with rfl | hq
        · exact ⟨p, by rw [h2 _ hn.1, Dict.get?_set, if_pos rfl], hp⟩
        · exact h1 q hq
      · intro j hj
        rw [List.map_cons, List.mem_cons, not_or] at hj
        rw [h2 j hj.2, Dict.get?_set, if_neg (fun e => hj.1 e.symm)]
    simp only [initLoop] at h
    by_cases hk : k ∈ fileParams
    · rw [if_pos hk] at h
      cases hp : toPathOpt ((Dict.get? kwargs k).getD dflt) with
      | error e => rw [hp] at h; cases h
      | ok p =>
        rw [hp] at h
        exact step p h (by rw [if_pos hk, hp])
    · rw [if_neg hk] at h
      exact step _ h (by rw [if_neg hk])

theorem fields_nodup (mol : Val) : ((fields mol).map (fun p => stored p.1)).Nodup :=
  (by decide : ((fields .none).map (fun p => stored p.1)).Nodup)

theorem mem_fileParams {key : String} :
    key ∈ fileParams ↔ key = "infile" ∨ key = "outfile" ∨ key = "output" := by
  simp [fileParams]

/-- The names of the parameters are different from those under which the files are stored. -/
theorem stored_inj {a b : String} (ha : a ∈ (fields .none).map Prod.fst)
    (hb : b ∈ (fields .none).map Prod.fst) (h : stored a = stored b) : a = b := by
  have key : ∀ a ∈ (fields .none).map Prod.fst, ∀ b ∈ (fields .none).map Prod.fst,
      stored a = stored b → a = b := by decide
  exact key a ha b hb h

theorem reads_stored {cwd : Val} {key : String} {v w : Val} {d : Attrs}
    (hget : Dict.get? d (stored key) = some w)
    (hw : if key ∈ fileParams then toPathOpt v = .ok w else w = v) :
    ∃ r, getAttr cwd d key = .ok r ∧ Reads cwd key v r := by
  unfold getAttr
  rw [hget]
  by_cases hk : key ∈ fileParams
  · rw [if_pos hk] at hw
    have hk' := mem_fileParams.1 hk
    rcases toPathOpt_ok hw with ⟨rfl, rfl⟩ | ⟨s, hs, rfl⟩
    · by_cases ho : key = "output"
      · exact ⟨cwd, by simp [ho], by unfold Reads; rw [if_pos hk']; right; simp [ho]⟩
      · exact ⟨.none, by simp [ho], by unfold Reads; rw [if_pos hk']; right; simp [ho]⟩
    · exact ⟨.path s, by simp, by unfold Reads; rw [if_pos hk']; left; exact ⟨s, hs, rfl⟩⟩
  · rw [if_neg hk] at hw
    subst hw
    have ho : key ≠ "output" := fun h => hk (by simp [h, fileParams])
    refine ⟨w, by simp [ho], ?_⟩
    unfold Reads
    rw [if_neg (fun h => hk (mem_fileParams.2 h))]

/-- The value read is determined. -/
theorem Reads.unique {cwd : Val} {key : String} {v w w' : Val} (h : Reads cwd key v w)
    (h' : Reads cwd key v w') : w = w' := by
  unfold Reads at h h'
  split at h
  · rename_i hk
    rw [if_pos hk] at h'
    rcases h with ⟨s, hs, rfl⟩ | ⟨rfl, rfl⟩ <;> rcases h' with ⟨s', hs', rfl⟩ | ⟨h1, rfl⟩
    · rcases hs with rfl | rfl <;> rcases hs' with h | h <;> simp_all
    · rcases hs with rfl | rfl <;> simp at h1
    · simp at hs'
    · rfl
  · rename_i hk
    rw [if_neg hk] at h'
    rw [h, h']

/-! ## the property -/

/-- The constructor: every parameter reads as the value given for it, or its default. -/
theorem C108_construct (mol cwd : Val) (kwargs : List (String × Val)) (d : Attrs)
    (h : construct mol kwargs = .ok d) :
    ∀ p ∈ fields mol, ∃ r, getAttr cwd d p.1 = .ok r ∧
      Reads cwd p.1 ((Dict.get? kwargs p.1).getD p.2) r := by
  unfold construct at h
  split at h
  · obtain ⟨h1, -⟩ := initLoop_get kwargs (fields mol) [] d (fields_nodup mol) h
    intro p hp
    obtain ⟨w, hw1, hw2⟩ := h1 p hp
    exact reads_stored hw1 hw2
  · cases h

/-- The full property: what can be given to the constructor can be assigned, and the parameter then
reads as that value. -/
def AssignReads : Prop :=
  ∀ (mol cwd : Val) (kwargs : List (String × Val)) (d d1 : Attrs) (key : String) (v : Val),
    construct mol kwargs = .ok d → construct mol [(key, v)] = .ok d1 →
    (setAttr d key v).2 = none ∧
      ∃ r, getAttr cwd (setAttr d key v).1 key = .ok r ∧ Reads cwd key v r

/-- **C108**, proved part: it is so for all values but None, and for None unless the parameter is one of
the three files; the other parameters keep their values.  A value that the constructor refuses is also
refused by the assignment, which then changes nothing. -/
theorem C108_assign_partial (cwd : Val) (d : Attrs) (key : String)
    (hkey : key ∈ (fields .none).map Prod.fst) (v : Val) (hv : v ≠ .none ∨ key ∉ fileParams) :
    (∀ mol d1, construct mol [(key, v)] = .ok d1 → (setAttr d key v).2 = none ∧
      ∃ r, getAttr cwd (setAttr d key v).1 key = .ok r ∧ Reads cwd key v r) ∧
    (∀ mol e, construct mol [(key, v)] = .error e → setAttr d key v = (d, some e)) ∧
    ∀ k ∈ (fields .none).map Prod.fst, k ≠ key →
      getAttr cwd (setAttr d key v).1 k = getAttr cwd d k := by
  have hset : ∀ w, (if key ∈ fileParams then toPathOpt v = .ok w else w = v) →
      setAttr d key v = (Dict.set d (stored key) w, none) := by
    intro w hw
    by_cases hk : key ∈ fileParams
    · rw [if_pos hk] at hw
      have hn : v ≠ .none := hv.resolve_right (fun h => h hk)
      unfold toPathOpt at hw
      rw [if_neg hn] at hw
      rcases mem_fileParams.1 hk with rfl | rfl | rfl
      · simp [setAttr, hw, stored, fileParams]
      · simp [setAttr, hw, stored, fileParams, hn]
      · simp [setAttr, hw, stored, fileParams, hn]
    · rw [if_neg hk] at hw
      subst hw
      have hk' : ¬ (key = "infile" ∨ key = "outfile" ∨ key = "output") := fun h => hk (mem_fileParams.2 h)
      simp only [not_or] at hk'
      simp [setAttr, hk'.1, hk'.2.1, hk'.2.2, stored, hk]
  have hother : ∀ w, ∀ k ∈ (fields .none).map Prod.fst, k ≠ key →
      getAttr cwd (Dict.set d (stored key) w) k = getAttr cwd d k := by
    intro w k hk hne
    unfold getAttr
    rw [Dict.get?_set, if_neg (fun e => hne (stored_inj hk hkey e.symm))]
  have hany : ∀ mol, ([(key, v)] : List (String × Val)).all
      (fun p => (fields mol).any (fun q => decide (q.1 = p.1))) = true := by
    intro mol
    obtain ⟨q, hq, rfl⟩ := List.mem_map.1 hkey
    simp only [List.all_cons, List.all_nil, Bool.and_true]
    rw [show (fields mol).any (fun q' => decide (q'.1 = q.1)) =
      (fields .none).any (fun q' => decide (q'.1 = q.1)) from rfl]
    exact List.any_eq_true.2 ⟨q, hq, by simp⟩
  by_cases hok : ∃ w, (if key ∈ fileParams then toPathOpt v = .ok w else w = v)
  · obtain ⟨w, hw⟩ := hok
    refine ⟨?_, ?_, ?_⟩
    · intro mol d1 _
      rw [hset w hw]
      exact ⟨rfl, reads_stored (by rw [Dict.get?_set, if_pos rfl]) hw⟩
    · intro mol e he
      exfalso
      have : ∀ (fs : List (String × Val)) (d0 : Attrs), (∀ p ∈ fs, p.1 ∈ fileParams → p.2 = .none) →
          initLoop [(key, v)] fs d0 ≠ .error e := by
        intro fs
        induction fs with
        | nil => intro d0 _ h; cases h
        | cons p fs ih =>
          obtain ⟨k, dflt⟩ := p
          intro d0 hd
          simp only [initLoop]
          split
          · rename_i hk
            have hp : ∃ q, toPathOpt ((Dict.get? [(key, v)] k).getD dflt) = .ok q := by
              by_cases hkk : key = k
              · subst hkk
                rw [if_pos hk] at hw
                exact ⟨w, by simpa [Dict.get?] using hw⟩
              · exact ⟨.none, by rw [show dflt = .none from hd (k, dflt) (by simp) hk]; simp [Dict.get?, hkk, toPathOpt]⟩
            obtain ⟨q, hq⟩ := hp
            rw [hq]
            exact ih _ (fun p hp => hd p (by simp [hp]))
          · exact ih _ (fun p hp => hd p (by simp [hp]))
      unfold construct at he
      rw [if_pos (hany mol)] at he
      refine this (fields mol) [] ?_ he
      intro p hp hf
      simp only [fields, List.mem_cons, List.not_mem_nil, or_false] at hp
      rcases hp with rfl | rfl | rfl | rfl | rfl | rfl | rfl | rfl | rfl | rfl | rfl | rfl | rfl | rfl | rfl <;>
        first | rfl | (simp [fileParams] at hf)
    · intro k hk hne
      rw [hset w hw]
      exact hother w k hk hne
  · have hfile : key ∈ fileParams := by
      by_contra hk
      exact hok ⟨v, by rw [if_neg hk]⟩
    have hn : v ≠ .none := hv.resolve_right (fun h => h hfile)
    have hnum : (∃ x, v = .num x) ∨ ∃ a, v = .obj a := by
      cases v with
      | none => exact absurd rfl hn
      | str s => exact absurd ⟨.path s, by rw [if_pos hfile]; simp [toPathOpt, Val.toPath]⟩ hok
      | path s => exact absurd ⟨.path s, by rw [if_pos hfile]; simp [toPathOpt, Val.toPath]⟩ hok
      | num x => exact Or.inl ⟨x, rfl⟩
      | obj a => exact Or.inr ⟨a, rfl⟩
    have hs : setAttr d key v = (d, some .typeError) := by
      rcases hnum with ⟨x, rfl⟩ | ⟨x, rfl⟩ <;>
        rcases mem_fileParams.1 hfile with rfl | rfl | rfl <;> simp [setAttr, Val.toPath]
    refine ⟨?_, ?_, ?_⟩
    · intro mol d1 h
      obtain ⟨p, hp, hpk⟩ := List.mem_map.1 (show key ∈ (fields mol).map Prod.fst from hkey)
      obtain ⟨r, -, hr⟩ := C108_construct mol cwd _ d1 h p hp
      rw [hpk] at hr
      exfalso
      simp only [Dict.get?, if_true, Option.getD_some] at hr
      unfold Reads at hr
      rw [if_pos (mem_fileParams.1 hfile)] at hr
      rcases hnum with ⟨x, rfl⟩ | ⟨x, rfl⟩ <;> simp at hr
    · intro mol e he
      rw [hs]
      have : e = .typeError := by
        have key' : ∀ (fs : List (String × Val)) (d0 : Attrs), initLoop [(key, v)] fs d0 = .error e →
            e = .typeError := by
          intro fs
          induction fs with
          | nil => intro d0 h; cases h
          | cons p fs ih =>
            obtain ⟨k, dflt⟩ := p
            intro d0 h
            simp only [initLoop] at h
            split at h
            · split at h
              · rename_i hp
                have : ∀ v e', toPathOpt v = .error e' → e' = .typeError := by
                  intro v e' h; cases v <;> simp_all [toPathOpt, Val.toPath]
                cases h
                exact this _ _ hp
              · exact ih _ h
            · exact ih _ h
        unfold construct at he
        rw [if_pos (hany mol)] at he
        exact key' _ _ he
      rw [this]
    · intro k _ _
      rw [hs]

/-- None for a file: the assignment to `outfile` or `output` is ignored, the one to `infile` is a
TypeError; the constructor takes it. -/
theorem C108_none (mol : Val) (d : Attrs) :
    setAttr d "outfile" .none = (d, none) ∧ setAttr d "output" .none = (d, none) ∧
    setAttr d "infile" .none = (d, some .typeError) ∧
    ∀ key ∈ fileParams, ∃ d1, construct mol [(key, .none)] = .ok d1 :=
  ⟨by simp [setAttr], by simp [setAttr], by simp [setAttr, Val.toPath], by
    intro key hk
    rcases mem_fileParams.1 hk with rfl | rfl | rfl <;> exact ⟨_, rfl⟩⟩

/-- C108 in full is false: an output file once set cannot be removed. -/
theorem C108_assign_refuted : ¬ AssignReads := by
  intro h
  obtain ⟨-, r, h2, h3⟩ := h .none (.path []) [("outfile", .str "a.h5".toList)] _ _ "outfile" .none rfl rfl
  have hr : r = .path "a.h5".toList := by
    have : (Except.ok r : Except PyErr Val) = .ok (.path "a.h5".toList) := by
      rw [← h2]; rfl
    exact Except.ok.inj this
  subst hr
  simp [Reads] at h3

/-- The same in a `with` block: `temp_context(outfile=None)` (as for a run that is to write no file) keeps
the output file of the surrounding parameters. -/
theorem C108_context (d : Attrs) (body : Stmt) (key : String) (hk : key = "outfile" ∨ key = "output")
    (kwargs : List (String × Val)) :
    exec (.context ((key, .none) :: kwargs) body) d = exec (.context kwargs body) d := by
  rcases hk with rfl | rfl <;> simp [exec, setAll, setAttr]

/-- The parameters of a simulation for which nothing is said: the values a user gets, name by name.  Any
other attribute is an AttributeError, except the private names of the files; any other argument, these
names included, is a TypeError. -/
theorem C108_defaults (mol cwd : Val) : ∃ d, construct mol [] = .ok d ∧
    getAttr cwd d "temperature" = .ok (.num (4 / 10)) ∧ getAttr cwd d "pressure" = .ok (.num (135 / 10)) ∧
    getAttr cwd d "molecule" = .ok mol ∧
    (∀ k ∈ ["moment_inertia_scale", "harmonic_force", "wave_number", "space_group", "num_steps", "infile",
      "outfile"], getAttr cwd d k = .ok .none) ∧
    getAttr cwd d "linear_steps" = .ok (.num 100) ∧ getAttr cwd d "max_gen" = .ok (.num 500) ∧
    getAttr cwd d "gen_steps" = .ok (.num (2 * 10 ^ 4)) ∧
    getAttr cwd d "output_interval" = .ok (.num (10 ^ 4)) ∧ getAttr cwd d "output" = .ok cwd ∧
    ∀ k, k ∉ (fields mol).map Prod.fst →
      (k ∉ ["_infile", "_outfile", "_output"] → getAttr cwd d k = .error .attributeError) ∧
      ∀ kwargs v, (k, v) ∈ kwargs → construct mol kwargs = .error .typeError := by
  obtain ⟨d, hd⟩ : ∃ d, construct mol [] = .ok d := ⟨_, rfl⟩
  have hd' : construct mol [] = .ok [("temperature", .num (2 / 5)), ("pressure", .num (27 / 2)),
    ("molecule", mol), ("moment_inertia_scale", .none), ("harmonic_force", .none), ("wave_number", .none),
    ("space_group", .none), ("num_steps", .none), ("linear_steps", .num 100), ("max_gen", .num 500),
    ("gen_steps", .num 20000), ("output_interval", .num 10000), ("_infile", .none), ("_outfile", .none),
    ("_output", .none)] := rfl
  refine ⟨_, hd', ?_, ?_, rfl, ?_, rfl, rfl, ?_, ?_, rfl, ?_⟩
  · rw [show (4 / 10 : ℚ) = 2 / 5 by norm_num]; rfl
  · rw [show (135 / 10 : ℚ) = 27 / 2 by norm_num]; rfl
  · intro k hk
    simp only [List.mem_cons, List.not_mem_nil, or_false] at hk
    rcases hk with rfl | rfl | rfl | rfl | rfl | rfl | rfl <;> rfl
  · rw [show (2 * 10 ^ 4 : ℚ) = 20000 by norm_num]; rfl
  · rw [show (10 ^ 4 : ℚ) = 10000 by norm_num]; rfl
  · intro k hk
    simp only [fields, List.map_cons, List.map_nil, List.mem_cons, List.not_mem_nil, or_false, not_or] at hk
    obtain ⟨k1, k2, k3, k4, k5, k6, k7, k8, k9, k10, k11, k12, k13, k14, k15⟩ := hk
    refine ⟨?_, ?_⟩
    · intro hp
      simp only [List.mem_cons, List.not_mem_nil, or_false, not_or] at hp
      have hs : stored k = k := by
        rw [stored, if_neg (fun h => by rcases mem_fileParams.1 h with h | h | h <;> simp_all)]
      rw [getAttr, hs]
      have hn : Dict.get? [("temperature", Val.num (2 / 5)), ("pressure", .num (27 / 2)),
          ("molecule", mol), ("moment_inertia_scale", .none), ("harmonic_force", .none), ("wave_number", .none),
          ("space_group", .none), ("num_steps", .none), ("linear_steps", .num 100), ("max_gen", .num 500),
          ("gen_steps", .num 20000), ("output_interval", .num 10000), ("_infile", .none), ("_outfile", .none),
          ("_output", .none)] k = none := by
        simp [Dict.get?, Ne.symm k1, Ne.symm k2, Ne.symm k3, Ne.symm k4, Ne.symm k5, Ne.symm k6, Ne.symm k7,
          Ne.symm k8, Ne.symm k9, Ne.symm k10, Ne.symm k11, Ne.symm k12, Ne.symm hp.1, Ne.symm hp.2.1,
          Ne.symm hp.2.2]
      rw [hn]
    · intro kwargs v hv
      rw [construct, if_neg]
      intro h
      have := (List.all_eq_true.1 h) _ hv
      simp [fields, Ne.symm k1, Ne.symm k2, Ne.symm k3, Ne.symm k4, Ne.symm k5, Ne.symm k6, Ne.symm k7,
          Ne.symm k8, Ne.symm k9, Ne.symm k10, Ne.symm k11, Ne.symm k12, Ne.symm k13, Ne.symm k14,
          Ne.symm k15] at this

/-- Names that `C108_defaults` says are refused. -/
example : "wave" ∉ (fields .none).map Prod.fst ∧ "wave" ∉ ["_infile", "_outfile", "_output"] := by decide

/-- A parameter set is not misread: the hypotheses of `C108_assign_partial` for a temperature and an input
file. -/
example : "infile" ∈ (fields .none).map Prod.fst ∧ (Val.str "b.gsd".toList) ≠ .none ∧
    (∃ d1, construct .none [("infile", .str "b.gsd".toList)] = .ok d1) ∧
    (∃ e, construct .none [("infile", .num 1)] = .error e) ∧
    getAttr .none (setAttr [] "infile" (.str "b.gsd".toList)).1 "infile" = .ok (.path "b.gsd".toList) :=
  ⟨by decide, by simp, ⟨_, rfl⟩, ⟨_, rfl⟩, rfl⟩

/-- The hypothesis of `C108_construct`. -/
example : ∃ d, construct (.num 0) [("output", .str "dir".toList), ("temperature", .num 1)] = .ok d := ⟨_, rfl⟩

end Verif.Names
