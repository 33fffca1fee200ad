import Verif.Cli.Model
/-!
# Properties C72 and C90: the command line
-/

namespace Verif.Cli

variable {K : Type}

/-! ## C72 -/

/-- C72, proved part.  Full statement: every combination of global options can be used with
`comp-dynamics` and reaches `process_file` as the corresponding argument.  Proved for the options
other than `--molecule` and `--output`; these are refused, see `C72_molecule_refuted` and
`C72_output_refuted`. -/
theorem C72_arguments_partial (g : Globals K) (c : Command) (hm : g.molecule = none)
    (ho : g.output = none) :
    ∃ args, compDynamics g c = .ok args ∧
      Dict.get? args "infile" = some (.path c.infile) ∧
      Dict.get? args "outfile" = some (.path c.outfile) ∧
      Dict.get? args "wave_number" = some (.float g.waveNumber) ∧
      Dict.get? args "keyframe_interval" = some (.int g.keyframeInterval) ∧
      Dict.get? args "keyframe_max" = some (.int g.keyframeMax) ∧
      Dict.get? args "scattering_function" = some (.bool c.scatteringFunction) ∧
      (∀ n, g.stepsMax = some n → Dict.get? args "steps_max" = some (.int n)) ∧
      (g.stepsMax = none → Dict.get? args "steps_max" = some .pyNone) ∧
      (c.linearDynamics = true → Dict.get? args "linear_steps" = some .pyNone) ∧
      (c.linearDynamics = false → Dict.get? args "linear_steps" = some (.int g.linearSteps)) ∧
      (∀ p, c.molRelaxations = some p → Dict.get? args "mol_relaxations" = some (.events p)) ∧
      (c.molRelaxations = none → Dict.get? args "mol_relaxations" = some .pyNone) := by
  obtain ⟨sm, ki, ls, km, mo, wn, ou⟩ := g
  obtain ⟨mr, ld, sf, inf, outf⟩ := c
  simp only at hm ho
  subst hm
  subst ho
  refine ⟨[("infile", .path inf), ("wave_number", .float wn), ("steps_max", orNone .int sm),
    ("linear_steps", if ld then .pyNone else .int ls), ("keyframe_interval", .int ki),
    ("keyframe_max", .int km), ("mol_relaxations", orNone .events mr), ("outfile", .path outf),
    ("scattering_function", .bool sf)], ?_, rfl, rfl, rfl, rfl, rfl, rfl, ?_, ?_, ?_, ?_, ?_, ?_⟩
  · cases sm <;> cases ld <;> rfl
  · intro n h
    cases h
    rfl
  · intro h
    cases h
    rfl
  · intro h
    cases h
    rfl
  · intro h
    cases h
    rfl
  · intro n h
    cases h
    rfl
  · intro h
    cases h
    rfl

example : ∃ (g : Globals Nat) (c : Command), g.molecule = none ∧ g.output = none ∧
    g.stepsMax = some 100 ∧ c.linearDynamics = true :=
  ⟨{ stepsMax := some 100, waveNumber := 3 },
   { linearDynamics := true, infile := ['a'], outfile := ['b'] }, rfl, rfl, rfl, rfl⟩

/-- C72.  `process_file` called directly with a file and a wave number: every frame is read, without exponential
steps and with a keyframe every million steps, nothing is written and no scattering function is computed. -/
theorem C72_direct {α : Type} (f : Str) (x : K) : ∃ args : Dict String (Val K),
    bindCall signature [("infile", .path f), ("wave_number", .float x)] = .ok args ∧
      Dict.get? args "infile" = some (.path f) ∧ Dict.get? args "wave_number" = some (.float x) ∧
      Dict.get? args "mol_relaxations" = some .pyNone ∧ Dict.get? args "outfile" = some .pyNone ∧
      Dict.get? args "scattering_function" = some (.bool false) ∧
      ∀ raws : List (Gsd.Raw α), gsdPairs args raws = some (Gsd.readGsd raws none none 1000000 500) :=
  ⟨_, rfl, rfl, rfl, rfl, rfl, rfl, fun _ => rfl⟩

/-- C72.  A call with keyword arguments fails iff one of them is unknown or an argument without default is
missing, and then with TypeError. -/
theorem C72_call (params : List (String × Option (Val K))) (kw : Dict String (Val K)) :
    (∀ e, bindCall params kw = .error e → e = .typeError) ∧
    ((∃ e, bindCall params kw = .error e) ↔ (∃ p ∈ kw, p.1 ∉ params.map Prod.fst) ∨
      ∃ q ∈ params, q.2 = none ∧ Dict.get? kw q.1 = none) := by
  have key : ∀ ps : List (String × Option (Val K)), (∀ e, bindAll kw ps = .error e → e = .typeError) ∧
      ((∃ e, bindAll kw ps = .error e) ↔ ∃ q ∈ ps, q.2 = none ∧ Dict.get? kw q.1 = none) := by
    intro ps
    induction ps with
    | nil => simp [bindAll]
    | cons p ps ih =>
      cases h1 : Dict.get? kw p.1 with
      | some v =>
        have hb : bindOne kw p = .ok (p.1, v) := by simp [bindOne, h1]
        cases h2 : bindAll kw ps with
        | ok vs => simp [bindAll, hb, h2, h1] at ih ⊢; exact ih
        | error e => simp [bindAll, hb, h2, h1] at ih ⊢; exact ih
      | none =>
        cases h3 : p.2 with
        | none =>
          have hb : bindOne kw p = .error .typeError := by simp [bindOne, h1, h3]
          simp [bindAll, hb, h1, h3]
        | some d =>
          have hb : bindOne kw p = .ok (p.1, d) := by simp [bindOne, h1, h3]
          cases h2 : bindAll kw ps with
          | ok vs => simp [bindAll, hb, h2, h3] at ih ⊢; exact ih
          | error e => simp [bindAll, hb, h2, h3] at ih ⊢; exact ih
  unfold bindCall
  by_cases h : (List.all kw fun p => decide (p.fst ∈ List.map Prod.fst params)) = true
  · rw [if_pos h]
    have hn : ¬ ∃ p ∈ kw, p.1 ∉ params.map Prod.fst := by
      rintro ⟨p, hp, hq⟩
      exact hq (by simpa using List.all_eq_true.1 h p hp)
    refine ⟨(key params).1, (key params).2.trans ⟨Or.inr, fun h' => h'.resolve_left hn⟩⟩
  · rw [if_neg h]
    refine ⟨fun e he => (Except.error.inj he).symm, ⟨fun _ => Or.inl ?_, fun _ => ⟨_, rfl⟩⟩⟩
    simpa using h

/-- C72.  A keyword given twice is a TypeError, and nothing else is. -/
theorem C72_twice (a b : Dict String (Val K)) :
    merge a b = if ∃ k, k ∈ a.map Prod.fst ∧ k ∈ b.map Prod.fst then .error .typeError else .ok (a ++ b) := by
  unfold merge
  have : (b.any (fun p => decide (p.1 ∈ a.map Prod.fst)) = true) ↔
      ∃ k, k ∈ a.map Prod.fst ∧ k ∈ b.map Prod.fst := by
    rw [List.any_eq_true]
    constructor
    · rintro ⟨p, hp, hq⟩
      exact ⟨p.1, by simpa using hq, List.mem_map.2 ⟨p, hp, rfl⟩⟩
    · rintro ⟨k, hk, hb⟩
      obtain ⟨p, hp, rfl⟩ := List.mem_map.1 hb
      exact ⟨p, hp, by simpa using hk⟩
  by_cases h : ∃ k, k ∈ a.map Prod.fst ∧ k ∈ b.map Prod.fst
  · rw [if_pos (this.2 h), if_pos h]
  · rw [if_neg (fun h' => h (this.1 h')), if_neg h]

/-- Two keywords in common and none. -/
example : merge [("a", (.int 1 : Val Nat)), ("b", .int 2)] [("b", .int 3)] = .error .typeError ∧
    bindCall [("a", none), ("b", some (.int 5))] [("a", (.int 1 : Val Nat))] =
      .ok [("a", .int 1), ("b", .int 5)] := ⟨rfl, rfl⟩

/-- C72.  The options of the group are handed to the commands under their names, those without value not at
all; and none of them has the name of a keyword that `comp-dynamics` spells out. -/
theorem C72_options (g : Globals K) (c : Command) :
    Dict.get? g.obj "steps_max" = g.stepsMax.map .int ∧
    Dict.get? g.obj "keyframe_interval" = some (.int g.keyframeInterval) ∧
    Dict.get? g.obj "linear_steps" = some (.int g.linearSteps) ∧
    Dict.get? g.obj "keyframe_max" = some (.int g.keyframeMax) ∧
    Dict.get? g.obj "molecule" = g.molecule.map .str ∧
    Dict.get? g.obj "wave_number" = some (.float g.waveNumber) ∧
    Dict.get? g.obj "output" = g.output.map .str ∧
    (∀ p ∈ g.obj, p.1 ∈ ["steps_max", "keyframe_interval", "linear_steps", "keyframe_max", "molecule",
      "wave_number", "output"]) ∧
    merge c.named (c.adjust g.obj) = .ok (c.named ++ c.adjust g.obj) := by
  obtain ⟨sm, ki, ls, km, mo, wn, ou⟩ := g
  obtain ⟨mr, ld, sf, inf, outf⟩ := c
  refine ⟨?_, ?_, ?_, ?_, ?_, ?_, ?_, ?_, ?_⟩
  · cases sm <;> cases mo <;> cases ou <;> rfl
  · cases sm <;> cases mo <;> cases ou <;> rfl
  · cases sm <;> cases mo <;> cases ou <;> rfl
  · cases sm <;> cases mo <;> cases ou <;> rfl
  · cases sm <;> cases mo <;> cases ou <;> rfl
  · cases sm <;> cases mo <;> cases ou <;> rfl
  · cases sm <;> cases mo <;> cases ou <;> rfl
  · intro p hp
    have hp' := (List.mem_filter.1 hp).1
    simp only [Globals.kwargs, List.mem_cons, List.not_mem_nil, or_false] at hp' ⊢
    rcases hp' with rfl | rfl | rfl | rfl | rfl | rfl | rfl <;> simp
  · cases sm <;> cases ld <;> cases mo <;> cases ou <;> rfl

/-- C72 fails for `--molecule`: every command line with it ends in a TypeError, as `process_file` has no
such parameter. -/
theorem C72_molecule_refuted (g : Globals K) (c : Command) (m : Str) (h : g.molecule = some m) :
    compDynamics g c = .error .typeError := by
  obtain ⟨sm, ki, ls, km, mo, wn, ou⟩ := g
  obtain ⟨mr, ld, sf, inf, outf⟩ := c
  simp only at h
  subst h
  cases sm <;> cases ld <;> cases ou <;> rfl

/-- C72 fails for `--output` in the same way. -/
theorem C72_output_refuted (g : Globals K) (c : Command) (o : Str) (h : g.output = some o) :
    compDynamics g c = .error .typeError := by
  obtain ⟨sm, ki, ls, km, mo, wn, ou⟩ := g
  obtain ⟨mr, ld, sf, inf, outf⟩ := c
  simp only at h
  subst h
  cases sm <;> cases ld <;> cases mo <;> rfl

/-- C72.  `--linear-dynamics` selects the linear reader, and without it the exponential one is used;
both with the options given. -/
theorem C72_reader {α : Type} (g : Globals K) (c : Command) (hm : g.molecule = none)
    (ho : g.output = none) (raws : List (Gsd.Raw α)) :
    ∃ args, compDynamics g c = .ok args ∧
      gsdPairs args raws = some (if c.linearDynamics then
          Gsd.gsdLinear raws g.stepsMax g.keyframeInterval g.keyframeMax
        else Gsd.gsdExponential raws g.stepsMax g.keyframeInterval g.keyframeMax g.linearSteps) := by
  obtain ⟨sm, ki, ls, km, mo, wn, ou⟩ := g
  obtain ⟨mr, ld, sf, inf, outf⟩ := c
  simp only at hm ho
  subst hm
  subst ho
  cases sm <;> cases ld <;> exact ⟨_, rfl, rfl⟩

open Verif.Process in
/-- C72 fails for `--mol-relaxations`: the run ends in an AttributeError at the first frame with a
molecule and a keyframe, whatever the file of definitions contains. -/
theorem C72_relaxations_refuted {ι Φ D R ρ σ ν : Type} [DecidableEq ι] (g : Globals K)
    (c : Command) (p : Str) (hm : g.molecule = none) (ho : g.output = none)
    (hp : c.molRelaxations = some p) (E : Process.Env Φ D R ρ σ ν) (clear : R → R)
    (hE : ∀ args v, compDynamics g c = .ok args → Dict.get? args "mol_relaxations" = some v →
      E.custom = customOf clear v)
    (f : Φ) (d : D) (r : R) (hd : E.newDyn f = .ok d) (hr : E.newRelax f = .ok r)
    (hf : E.numPos f ≠ 0) (k : ι) (ks : List ι) (rest : List (List ι × Φ)) (ending : Option PyErr)
    (file : Cache.File (Rec ι ρ σ ν)) :
    (processFile E (some ((k :: ks, f) :: rest, ending)) true file).2 = .error .attributeError := by
  obtain ⟨args, h1, h2⟩ := C72_arguments_partial g c hm ho
  have hc : E.custom = some (fun r => (clear r, some .attributeError)) :=
    hE args _ h1 (h2.2.2.2.2.2.2.2.2.2.2.1 p hp)
  have hv : visit E [] k f = (Dict.set (Dict.setdefault [] k (d, r)) k (d, clear r),
      .error .attributeError) := by
    unfold visit
    rw [hd, hr, hc]
    simp [Dict.setdefault, Dict.mem, Dict.get?, Dict.set]
  unfold processFile frameLoop
  simp only [if_neg hf]
  unfold indexLoop
  simp only [hv]

/-! ## C90 -/

/-- C90, proved part.  Full statement: the level of the log is the one chosen by the number of `-v`, and
it goes to the file given by `--log-file`, to the terminal if there is none.  Proved without
`--log-file`; with it the statement always fails, see `C90_refuted`. -/
theorem C90_terminal_partial (l : List Tok) (h : ∀ f, Tok.logFile f ∉ l) :
    (configure l).sink = some .stream ∧
    (configure l).level =
      (if l.count .verbose = 0 then 30 else if l.count .verbose = 1 then 20 else 10) := by
  have h1 : fileFirst l = false := by
    induction l with
    | nil => rfl
    | cons t l ih =>
      cases t with
      | verbose => rfl
      | logFile f => exact absurd (by simp) (h f)
      | other => exact ih (fun f hf => h f (by simp [hf]))
  unfold configure
  rw [h1]
  unfold verbosity fileLogger basicConfig
  simp only [Bool.false_eq_true, if_false]
  refine ⟨trivial, ?_⟩
  unfold verboseCount
  generalize List.count Tok.verbose l = n
  rcases n with _ | _ | n <;> simp

example : (∀ f, Tok.logFile f ∉ [Tok.verbose, .verbose]) ∧ (configure [.verbose, .verbose]).level = 10 :=
  ⟨by simp, rfl⟩

/-- C90 fails for every command line with `--log-file`: the file or the level is ignored. -/
theorem C90_refuted (l : List Tok) (f : Str) (_h : Tok.logFile f ∈ l) :
    ¬ ((∃ g, (configure l).sink = some (.file g)) ∧
      (configure l).level =
        (if l.count .verbose = 0 then 30 else if l.count .verbose = 1 then 20 else 10)) := by
  rintro ⟨⟨g, h1⟩, h2⟩
  cases hf : fileFirst l with
  | true =>
    have : (configure l).level = 0 := by
      unfold configure
      rw [hf]
      rfl
    rw [this] at h2
    split at h2
    · omega
    · split at h2 <;> omega
  | false =>
    have : (configure l).sink = some .stream := by
      unfold configure
      rw [hf]
      rfl
    rw [this] at h1
    cases h1

/-- C90.  What happens with `--log-file`: given before any `-v`, the log goes to the last file given, at
every level; otherwise the file is ignored. -/
theorem C90_log_file_partial (l : List Tok) (f : Str) (h : Tok.logFile f ∈ l) :
    ((∃ pre g post, l = pre ++ Tok.logFile g :: post ∧ Tok.verbose ∉ pre) →
      (configure l).level = 0 ∧ ∃ pre g post, l = pre ++ Tok.logFile g :: post ∧
        (∀ x, Tok.logFile x ∉ post) ∧ (configure l).sink = some (.file g)) ∧
    ((∃ pre post, l = pre ++ Tok.verbose :: post ∧ ∀ g, Tok.logFile g ∉ pre) →
      (configure l).sink = some .stream ∧
      (configure l).level = (if l.count .verbose = 1 then 20 else 10)) := by
  have hfile : ∀ (l : List Tok) (f : Str), Tok.logFile f ∈ l →
      ∃ pre g post, l = pre ++ Tok.logFile g :: post ∧ (∀ x, Tok.logFile x ∉ post) ∧
        logFileOf l = some g := by
    intro l
    induction l with
    | nil => intro f hf; simp at hf
    | cons t l ih =>
      intro f hf
      by_cases hl : ∃ f, Tok.logFile f ∈ l
      · obtain ⟨f', hf'⟩ := hl
        obtain ⟨pre, g, post, h1, h2, h3⟩ := ih f' hf'
        refine ⟨t :: pre, g, post, by rw [h1]; rfl, h2, ?_⟩
        cases t with
        | verbose => exact h3
        | other => exact h3
        | logFile x =>
          simp only [logFileOf]
          rw [h3]
          rfl
      · replace hl : ∀ f, Tok.logFile f ∉ l := fun f hf => hl ⟨f, hf⟩
        have ht : t = .logFile f := by
          rcases List.mem_cons.1 hf with h | h
          · exact h.symm
          · exact absurd h (hl f)
        subst ht
        refine ⟨[], f, l, rfl, hl, ?_⟩
        have : logFileOf l = none := by
          clear ih hf
          induction l with
          | nil => rfl
          | cons t l ih =>
            cases t with
            | logFile x => exact absurd (by simp) (hl x)
            | verbose => exact ih (fun f hf => hl f (by simp [hf]))
            | other => exact ih (fun f hf => hl f (by simp [hf]))
        simp only [logFileOf, this, Option.getD_none]
  constructor
  · rintro ⟨pre, g, post, h1, h2⟩
    have hff : fileFirst l = true := by
      rw [h1]
      clear h1
      induction pre with
      | nil => rfl
      | cons t pre ih =>
        cases t with
        | verbose => simp at h2
        | logFile x => rfl
        | other => exact ih (fun h => h2 (by simp [h]))
    obtain ⟨pre', g', post', h3, h4, h5⟩ := hfile l f h
    unfold configure
    rw [hff]
    refine ⟨rfl, pre', g', post', h3, h4, ?_⟩
    rw [h5]
    rfl
  · rintro ⟨pre, post, h1, h2⟩
    have hff : fileFirst l = false := by
      rw [h1]
      clear h1
      induction pre with
      | nil => rfl
      | cons t pre ih =>
        cases t with
        | verbose => rfl
        | logFile x => exact absurd (by simp) (h2 x)
        | other => exact ih (fun g h => h2 g (by simp [h]))
    have hc : verboseCount l ≠ 0 := by
      unfold verboseCount
      rw [h1]
      simp
    unfold configure
    rw [hff]
    refine ⟨rfl, ?_⟩
    unfold verbosity fileLogger basicConfig
    simp only [Bool.false_eq_true, if_false]
    unfold verboseCount at hc ⊢
    generalize List.count Tok.verbose l = n at hc ⊢
    rcases hv : n with _ | _ | n
    · exact absurd hv hc
    · simp
    · simp

example : (configure [.verbose, .logFile "a.log".toList]).sink = some .stream ∧
    (configure [.logFile "a.log".toList, .verbose]).level = 0 := ⟨rfl, rfl⟩

end Verif.Cli
