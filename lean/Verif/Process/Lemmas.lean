import Mathlib.Data.List.Induction
import Verif.Cache.Lemmas
import Verif.Process.Spec
/-!
# Helper lemmas for `process_file`
-/

namespace Verif.Process

open Verif.Cache

variable {ι Φ D R ρ σ ν : Type} [DecidableEq ι]

/-! ## the loops, flattened -/

/-- The visits without the cache: trackers, rows to be appended, exception. -/
def coreRun (E : Env Φ D R ρ σ ν) : List (ι × Φ) → Dict ι (D × R) →
    (Dict ι (D × R) × List (Rec ι ρ σ ν)) × Option PyErr
  | [], kf => ((kf, []), none)
  | v :: vs, kf =>
    match visit E kf v.1 v.2 with
    | (kf', .error e) => ((kf', []), some e)
    | (kf', .ok none) => coreRun E vs kf'
    | (kf', .ok (some row)) =>
      (((coreRun E vs kf').1.1, row :: (coreRun E vs kf').1.2), (coreRun E vs kf').2)

/-- The visits with the cache. -/
def visitLoop (E : Env Φ D R ρ σ ν) : List (ι × Φ) → St ι D R ρ σ ν → St ι D R ρ σ ν × Option PyErr
  | [], s => (s, none)
  | v :: vs, s =>
    match visit E s.kf v.1 v.2 with
    | (kf, .error e) => ({ s with kf := kf }, some e)
    | (kf, .ok none) => visitLoop E vs { s with kf := kf }
    | (kf, .ok (some row)) =>
      match s.cache.append s.file row with
      | ((c, file), some e) => (⟨kf, c, file⟩, some e)
      | ((c, file), none) => visitLoop E vs ⟨kf, c, file⟩

theorem visitLoop_append (E : Env Φ D R ρ σ ν) (a b : List (ι × Φ)) (s : St ι D R ρ σ ν) :
    visitLoop E (a ++ b) s = match visitLoop E a s with
      | (s', some e) => (s', some e)
      | (s', none) => visitLoop E b s' := by
  induction a generalizing s with
  | nil => rfl
  | cons v a ih =>
    simp only [List.cons_append, visitLoop]
    rcases hv : visit E s.kf v.1 v.2 with ⟨kf, e | r⟩
    · rfl
    · cases r with
      | none => exact ih _
      | some row =>
        simp only
        rcases ha : s.cache.append s.file row with ⟨⟨c, file⟩, e⟩
        cases e with
        | none => exact ih _
        | some e => rfl

theorem indexLoop_eq (E : Env Φ D R ρ σ ν) (f : Φ) : ∀ (ks : List ι) (s : St ι D R ρ σ ν),
    indexLoop E f ks s = visitLoop E (ks.map (fun k => (k, f))) s := by
  intro ks
  induction ks with
  | nil => intro s; rfl
  | cons k ks ih =>
    intro s
    simp only [List.map_cons, visitLoop, indexLoop]
    rcases hv : visit E s.kf k f with ⟨kf, e | r⟩
    · rfl
    · cases r with
      | none => exact ih _
      | some row =>
        simp only
        rcases ha : s.cache.append s.file row with ⟨⟨c, file⟩, e⟩
        cases e with
        | none => exact ih _
        | some e => rfl

theorem frameLoop_eq (E : Env Φ D R ρ σ ν) : ∀ (ps : List (List ι × Φ)) (s : St ι D R ρ σ ν),
    frameLoop E ps s = visitLoop E (visitsOf E ps) s := by
  intro ps
  induction ps with
  | nil => intro s; rfl
  | cons p ps ih =>
    intro s
    have hv : visitsOf E (p :: ps) =
        (if E.numPos p.2 = 0 then [] else p.1.map (fun k => (k, p.2))) ++ visitsOf E ps := rfl
    rw [hv, frameLoop]
    by_cases h : E.numPos p.2 = 0
    · simp only [h, if_true, List.nil_append]
      exact ih s
    · simp only [h, if_false]
      rw [visitLoop_append, ← indexLoop_eq]
      rcases indexLoop E p.2 p.1 s with ⟨s', e⟩
      cases e with
      | none => exact ih s'
      | some e => rfl

theorem visitLoop_core (E : Env Φ D R ρ σ ν) : ∀ (vs : List (ι × Φ)) (s : St ι D R ρ σ ν)
    (c : WriteCache (Rec ι ρ σ ν)) (file : File (Rec ι ρ σ ν)),
    runOps ((coreRun E vs s.kf).1.2.map .append) (s.cache, s.file) = ((c, file), none) →
    visitLoop E vs s = (⟨(coreRun E vs s.kf).1.1, c, file⟩, (coreRun E vs s.kf).2) := by
  intro vs
  induction vs with
  | nil =>
    intro s c file h
    simp only [coreRun, List.map_nil, runOps, Prod.mk.injEq, and_true] at h
    obtain ⟨h1, h2⟩ := h
    simp [visitLoop, coreRun, ← h1, ← h2]
  | cons v vs ih =>
    intro s c file h
    simp only [visitLoop, coreRun] at h ⊢
    rcases hv : visit E s.kf v.1 v.2 with ⟨kf, e | r⟩
    · rw [hv] at h
      simp only [List.map_nil, runOps, Prod.mk.injEq, and_true] at h
      simp [← h.1, ← h.2]
    · cases r with
      | none =>
        rw [hv] at h
        exact ih _ c file h
      | some row =>
        rw [hv] at h
        simp only [List.map_cons, runOps, Op.run] at h
        simp only
        rcases ha : s.cache.append s.file row with ⟨⟨c1, file1⟩, e⟩
        rw [ha] at h
        cases e with
        | none => exact ih ⟨kf, c1, file1⟩ c file h
        | some e => simp at h

theorem visitLoop_core_err (E : Env Φ D R ρ σ ν) : ∀ (vs : List (ι × Φ)) (s : St ι D R ρ σ ν)
    (c : WriteCache (Rec ι ρ σ ν)) (file : File (Rec ι ρ σ ν)) (e : PyErr),
    runOps ((coreRun E vs s.kf).1.2.map .append) (s.cache, s.file) = ((c, file), some e) →
    ∃ kf, visitLoop E vs s = (⟨kf, c, file⟩, some e) := by
  intro vs
  induction vs with
  | nil =>
    intro s c file e h
    simp [coreRun, runOps] at h
  | cons v vs ih =>
    intro s c file e h
    simp only [visitLoop, coreRun] at h ⊢
    rcases hv : visit E s.kf v.1 v.2 with ⟨kf, e' | r⟩
    · rw [hv] at h
      simp [runOps] at h
    · cases r with
      | none =>
        rw [hv] at h
        exact ih _ c file e h
      | some row =>
        rw [hv] at h
        simp only [List.map_cons, runOps, Op.run] at h
        simp only
        rcases ha : s.cache.append s.file row with ⟨⟨c1, file1⟩, e1⟩
        rw [ha] at h
        cases e1 with
        | none => exact ih ⟨kf, c1, file1⟩ c file e h
        | some e1 =>
          simp only [Prod.mk.injEq, Option.some.injEq] at h
          exact ⟨kf, by simp [h]⟩

/-! ## the cache with a file -/

theorem appended_map {β : Type} (l : List β) : appended (l.map Op.append) = l := by
  induction l with
  | nil => rfl
  | cons x l ih => simp [appended, ih]

/-- Appending to a cache with a file never fails. -/
theorem appends_ok {β : Type} (l : List β) (f : File β) :
    ∃ s, runOps (l.map .append) (fresh "dynamics" 1 false, f) = (s, none) ∧
      Inv "dynamics" 1 [] l f s ∧ (l ≠ [] → s.1.cache ≠ []) := by
  have hi := inv_fresh "dynamics" 1 false f
  simp only [Bool.false_eq_true, if_false] at hi
  induction l using List.reverseRecOn with
  | nil => exact ⟨_, rfl, hi, by simp⟩
  | append_singleton l x ih =>
    obtain ⟨s, h1, h2, _⟩ := ih
    obtain ⟨s', h3, h4, h5⟩ := inv_append "dynamics" 1 [] l f s x h2
    refine ⟨s', ?_, h4, fun _ => h5⟩
    rw [List.map_append, runOps_append, h1]
    simp [runOps, Op.run, h3]

/-- Two runs from different files: the same cache, and a table that is the same or untouched. -/
theorem appends_indep {β : Type} (l : List β) (f1 f2 : File β) :
    ∃ c g1 g2, runOps (l.map .append) (fresh "dynamics" 1 false, f1) = ((c, g1), none) ∧
      runOps (l.map .append) (fresh "dynamics" 1 false, f2) = ((c, g2), none) ∧
      c.hasFile = true ∧ c.group = some "dynamics" ∧
      ((c.toAppend = true ∧ Dict.get? g1 "dynamics" = Dict.get? g2 "dynamics") ∨
       (c.toAppend = false ∧ g1 = f1 ∧ g2 = f2)) := by
  induction l using List.reverseRecOn with
  | nil => exact ⟨_, f1, f2, rfl, rfl, rfl, rfl, Or.inr ⟨rfl, rfl, rfl⟩⟩
  | append_singleton l x ih =>
    obtain ⟨c, g1, g2, h1, h2, h3, h4, h5⟩ := ih
    by_cases hc : (!c.cache.isEmpty && decide ((c.cache.length : Int) = c.size)) = true
    · have ha : ∀ f : File β, c.append f x =
          (({ c with toAppend := true, cache := [x], emptied := c.emptied + 1 },
            toHdfTable f "dynamics" c.cache c.toAppend), none) := by
        intro f
        simp [WriteCache.append, hc, WriteCache.flush, h3, h4]
      refine ⟨{ c with toAppend := true, cache := [x], emptied := c.emptied + 1 },
        toHdfTable g1 "dynamics" c.cache c.toAppend,
        toHdfTable g2 "dynamics" c.cache c.toAppend, ?_, ?_⟩
      · rw [List.map_append, runOps_append, h1]
        simp [runOps, Op.run, ha g1]
      · refine ⟨?_, h3, h4, Or.inl ⟨rfl, ?_⟩⟩
        · rw [List.map_append, runOps_append, h2]
          simp [runOps, Op.run, ha g2]
        · have hne : c.cache.isEmpty = false := by
            simp only [Bool.and_eq_true] at hc
            simpa using hc.1
          rcases h5 with ⟨h5, h6⟩ | ⟨h5, _, _⟩
          · simp [toHdfTable, hne, h5, Dict.get?_set, rows, h6]
          · simp [toHdfTable, hne, h5, Dict.get?_set]
    · have ha : ∀ f : File β, c.append f x = (({ c with cache := c.cache ++ [x] }, f), none) := by
        intro f
        simp only [WriteCache.append, hc, Bool.false_eq_true, if_false]
      refine ⟨{ c with cache := c.cache ++ [x] }, g1, g2, ?_, ?_, h3, h4, h5⟩
      · rw [List.map_append, runOps_append, h1]
        simp [runOps, Op.run, ha g1]
      · rw [List.map_append, runOps_append, h2]
        simp [runOps, Op.run, ha g2]

/-- The cache after up to `8192` appends, with or without a file. -/
theorem appends_small {β : Type} (hasFile : Bool) (l : List β) (f : File β) (h : l.length ≤ 8192) :
    runOps (l.map .append) (⟨hasFile, some "dynamics", 1, false, [], 8192, 0⟩, f) =
      ((⟨hasFile, some "dynamics", 1, false, l, 8192, 0⟩, f), none) := by
  induction l using List.reverseRecOn with
  | nil => rfl
  | append_singleton l x ih =>
    simp only [List.length_append, List.length_singleton] at h
    rw [List.map_append, runOps_append, ih (by omega)]
    have : ¬ ((l.length : Int) = 8192) := by omega
    simp [runOps, Op.run, WriteCache.append, WriteCache.size, this]

/-- Without a file the append after `8192` others fails. -/
theorem appends_big {β : Type} (l : List β) (f : File β) (h : 8192 < l.length) :
    runOps (l.map .append) (⟨false, some "dynamics", 1, false, [], 8192, 0⟩, f) =
      ((⟨false, some "dynamics", 1, false, l.take 8192, 8192, 0⟩, f), some .assertionError) := by
  have hs := appends_small false (l.take 8192) f (by simp)
  have hl : l = l.take 8192 ++ l.drop 8192 := (List.take_append_drop _ _).symm
  have hd : ∃ x rest, l.drop 8192 = x :: rest := by
    cases hd : l.drop 8192 with
    | nil =>
      have := congrArg List.length hd
      simp at this
      omega
    | cons x rest => exact ⟨x, rest, rfl⟩
  obtain ⟨x, rest, hd⟩ := hd
  have hlen : (l.take 8192).length = 8192 := by simp; omega
  have hne : (l.take 8192).isEmpty = false := by
    cases h0 : l.take 8192 with
    | nil => simp [h0] at hlen
    | cons a b => rfl
  conv_lhs => rw [hl]
  rw [List.map_append, runOps_append, hs]
  simp only [hd, List.map_cons, runOps, Op.run, WriteCache.append, WriteCache.size, hne, hlen]
  simp [WriteCache.flush]

/-! ## one keyframe -/

/-- What a visit without uncaught exception does. -/
theorem visit_ok (E : Env Φ D R ρ σ ν) (kf kf' : Dict ι (D × R)) (k : ι) (f : Φ)
    (o : Option (Rec ι ρ σ ν)) (h : visit E kf k f = (kf', .ok o)) :
    ∃ d0 r0, E.newDyn f = .ok d0 ∧ E.newRelax f = .ok r0 ∧
      kf' = Dict.set (Dict.setdefault kf k (d0, r0)) k
        (soloStep E ((Dict.get? kf k).getD (d0, r0)) f).1 ∧
      ((o = none ∧ (soloStep E ((Dict.get? kf k).getD (d0, r0)) f).2 = none) ∨
       ∃ row v, E.simVars = .ok v ∧ o = some (.dyn k row v) ∧
         (soloStep E ((Dict.get? kf k).getD (d0, r0)) f).2 = some row) := by
  unfold visit at h
  cases hd : E.newDyn f with
  | error e => simp [hd] at h
  | ok d0 =>
    cases hr : E.newRelax f with
    | error e => simp [hd, hr] at h
    | ok r0 =>
      refine ⟨d0, r0, rfl, rfl, ?_⟩
      rw [hd, hr] at h
      have hg : (Dict.get? (Dict.setdefault kf k (d0, r0)) k).getD (d0, r0) =
          (Dict.get? kf k).getD (d0, r0) := by
        rw [Dict.get?_setdefault]
        simp
      simp only [hg] at h
      generalize (Dict.get? kf k).getD (d0, r0) = dr at h ⊢
      have key : ∀ r1, (kf', Except.ok o) = (Dict.set (Dict.setdefault kf k (d0, r0)) k
          (update E k (dr.1, r1) f).1, (update E k (dr.1, r1) f).2) →
          (∀ st, st = (match E.computeAll dr.1 f with
            | (d, .error _) => (((d, r1) : D × R), (none : Option ρ))
            | (d, .ok row) =>
              match E.relaxAdd r1 f with
              | (r, some _) => ((d, r), none)
              | (r, none) => ((d, r), some row)) →
            kf' = Dict.set (Dict.setdefault kf k (d0, r0)) k st.1 ∧
            ((o = none ∧ st.2 = none) ∨ ∃ row v, E.simVars = .ok v ∧ o = some (.dyn k row v) ∧
              st.2 = some row)) := by
        intro r1 h st hst
        subst hst
        simp only [Prod.mk.injEq] at h
        obtain ⟨h1, h2⟩ := h
        subst h1
        unfold update at h2 ⊢
        rcases hc : E.computeAll dr.1 f with ⟨d, e | row⟩
        · simp only [hc] at h2 ⊢
          refine ⟨trivial, Or.inl ⟨?_, trivial⟩⟩
          unfold afterRaise at h2
          split at h2
          · simpa using h2
          · simp at h2
        · simp only [hc] at h2 ⊢
          rcases ha : E.relaxAdd r1 f with ⟨r, e⟩
          cases e with
          | some e =>
            simp only [ha] at h2 ⊢
            refine ⟨trivial, Or.inl ⟨?_, trivial⟩⟩
            unfold afterRaise at h2
            split at h2
            · simpa using h2
            · simp at h2
          | none =>
            simp only [ha] at h2 ⊢
            cases hs : E.simVars with
            | error e => simp [hs] at h2
            | ok v =>
              simp only [hs] at h2 ⊢
              exact ⟨trivial, Or.inr ⟨row, v, rfl, by simpa using h2, rfl⟩⟩
      unfold soloStep
      cases hcust : E.custom with
      | none =>
        rw [hcust] at h
        exact key dr.2 h.symm _ rfl
      | some set =>
        rw [hcust] at h
        rcases hset : set dr.2 with ⟨r1, e⟩
        simp only [hset] at h ⊢
        cases e with
        | some e => simp at h
        | none => exact key r1 h.symm _ rfl

theorem solo_snoc (E : Env Φ D R ρ σ ν) (past : List Φ) (f : Φ) (s : (D × R) × List ρ)
    (h : solo E past = some s) :
    solo E (past ++ [f]) = some ((soloStep E s.1 f).1, s.2 ++ (soloStep E s.1 f).2.toList) := by
  cases past with
  | nil => simp [solo] at h
  | cons g past =>
    simp only [solo, List.cons_append] at h ⊢
    cases hd : E.newDyn g with
    | error e => simp [hd] at h
    | ok d0 =>
      cases hr : E.newRelax g with
      | error e => simp [hd, hr] at h
      | ok r0 =>
        simp only [hd, hr, Option.some.injEq] at h ⊢
        rw [← List.cons_append, List.foldl_append, h]
        rfl

theorem solo_one (E : Env Φ D R ρ σ ν) (f : Φ) (d : D) (r : R) (hd : E.newDyn f = .ok d)
    (hr : E.newRelax f = .ok r) :
    solo E [f] = some ((soloStep E (d, r) f).1, (soloStep E (d, r) f).2.toList) := by
  simp [solo, hd, hr]

/-- What is known of the trackers after the visits `past`. -/
def Known (E : Env Φ D R ρ σ ν) (past : List (ι × Φ)) (kf : Dict ι (D × R)) : Prop :=
  (∀ k, Dict.get? kf k = (solo E (framesOf k past)).map Prod.fst) ∧
  (∀ k, framesOf k past ≠ [] → solo E (framesOf k past) ≠ none) ∧
  (kf.map Prod.fst).Nodup

omit [DecidableEq ι] in
theorem Known.nil [DecidableEq ι] (E : Env Φ D R ρ σ ν) : Known (ι := ι) E [] [] := by
  refine ⟨fun k => rfl, fun k h => absurd rfl h, List.nodup_nil⟩

theorem framesOf_snoc (k k' : ι) (past : List (ι × Φ)) (f : Φ) :
    framesOf k' (past ++ [(k, f)]) = framesOf k' past ++ (if k = k' then [f] else []) := by
  unfold framesOf
  rw [List.filterMap_append]
  by_cases h : k = k' <;> simp [h]

theorem known_visit (E : Env Φ D R ρ σ ν) (past : List (ι × Φ)) (kf kf' : Dict ι (D × R)) (k : ι)
    (f : Φ) (o : Option (Rec ι ρ σ ν)) (hk : Known E past kf) (h : visit E kf k f = (kf', .ok o)) :
    Known E (past ++ [(k, f)]) kf' ∧
    ((o = none ∧ outcome E (framesOf k past) f = none) ∨
      ∃ row v, E.simVars = .ok v ∧ o = some (.dyn k row v) ∧
        outcome E (framesOf k past) f = some row) ∧
    (∀ k', soloRows E (framesOf k' (past ++ [(k, f)])) =
      soloRows E (framesOf k' past) ++ (o.bind (dynOf k')).toList) := by
  obtain ⟨d0, r0, hd, hr, hkf, ho⟩ := visit_ok E kf kf' k f o h
  obtain ⟨h1, h2, h3⟩ := hk
  -- the trackers used
  have hstep : ∃ rs, solo E (framesOf k past ++ [f]) =
      some ((soloStep E ((Dict.get? kf k).getD (d0, r0)) f).1, rs ++
        (soloStep E ((Dict.get? kf k).getD (d0, r0)) f).2.toList) ∧
      soloRows E (framesOf k past) = rs ∧
      outcome E (framesOf k past) f = (soloStep E ((Dict.get? kf k).getD (d0, r0)) f).2 := by
    rw [h1 k]
    cases hs : solo E (framesOf k past) with
    | some s =>
      refine ⟨s.2, ?_, by simp [soloRows, hs], by simp [outcome, hs]⟩
      rw [solo_snoc E _ f s hs]
      rfl
    | none =>
      have hnil : framesOf k past = [] := by
        by_contra hne
        exact h2 k hne hs
      rw [hnil]
      refine ⟨[], ?_, rfl, by simp [outcome, solo, hd, hr]⟩
      rw [List.nil_append, solo_one E f d0 r0 hd hr]
      rfl
  obtain ⟨rs, hs1, hs2, hs3⟩ := hstep
  refine ⟨⟨?_, ?_, ?_⟩, ?_, ?_⟩
  · intro k'
    rw [framesOf_snoc, hkf, Dict.get?_set]
    by_cases hkk : k = k'
    · subst hkk
      simp [hs1]
    · simp [hkk, Dict.get?_setdefault, h1 k']
  · intro k'
    rw [framesOf_snoc]
    by_cases hkk : k = k'
    · subst hkk
      simp [hs1]
    · simpa [hkk] using h2 k'
  · rw [hkf]
    apply Dict.nodup_set
    unfold Dict.setdefault
    split
    · exact h3
    · exact Dict.nodup_set _ _ _ h3
  · rw [hs3]
    exact ho
  · intro k'
    rw [framesOf_snoc]
    by_cases hkk : k = k'
    · subst hkk
      simp only [if_true]
      rw [hs2, soloRows, hs1]
      simp only [Option.map_some, Option.getD_some]
      congr 1
      rcases ho with ⟨rfl, h5⟩ | ⟨row, v, _, rfl, h5⟩
      · rw [h5]; rfl
      · rw [h5]; simp [dynOf]
    · simp only [hkk, if_false, List.append_nil]
      rcases ho with ⟨rfl, _⟩ | ⟨row, v, _, rfl, _⟩
      · simp
      · simp [dynOf, hkk]

theorem coreRun_known (E : Env Φ D R ρ σ ν) : ∀ (vs past : List (ι × Φ)) (kf : Dict ι (D × R)),
    Known E past kf → (coreRun E vs kf).2 = none →
    Known E (past ++ vs) (coreRun E vs kf).1.1 ∧
    (coreRun E vs kf).1.2.filterMap dynPair = expected E past vs ∧
    (∀ r ∈ (coreRun E vs kf).1.2, ∃ k row v, r = .dyn k row v ∧ E.simVars = .ok v) ∧
    (∀ k, soloRows E (framesOf k (past ++ vs)) =
      soloRows E (framesOf k past) ++ (coreRun E vs kf).1.2.filterMap (dynOf k)) := by
  intro vs
  induction vs with
  | nil =>
    intro past kf hk _
    exact ⟨by simpa [coreRun] using hk, rfl, by simp [coreRun], by simp [coreRun]⟩
  | cons v vs ih =>
    intro past kf hk herr
    obtain ⟨k, f⟩ := v
    have hcons : past ++ (k, f) :: vs = past ++ [(k, f)] ++ vs := by simp
    simp only [coreRun] at herr ⊢
    rcases hv : visit E kf k f with ⟨kf', e | o⟩
    · simp [hv] at herr
    · obtain ⟨g1, g2, g3⟩ := known_visit E past kf kf' k f o hk hv
      rw [hcons]
      cases o with
      | none =>
        simp only [hv] at herr ⊢
        obtain ⟨a, b, c, d⟩ := ih _ kf' g1 herr
        refine ⟨a, ?_, c, ?_⟩
        · rw [b]
          rcases g2 with ⟨_, g2⟩ | ⟨row, v, _, g2, _⟩
          · simp [expected, g2]
          · simp at g2
        · intro k'
          rw [d k', g3 k']
          simp
      | some row =>
        simp only [hv] at herr ⊢
        obtain ⟨a, b, c, d⟩ := ih _ kf' g1 herr
        rcases g2 with ⟨g2, _⟩ | ⟨rw', v, hsv, g2, g4⟩
        · simp at g2
        · simp only [Option.some.injEq] at g2
          subst g2
          refine ⟨a, ?_, ?_, ?_⟩
          · simp only [List.filterMap_cons, dynPair]
            rw [b]
            simp [expected, g4]
          · intro r hr
            rcases List.mem_cons.1 hr with rfl | hr
            · exact ⟨k, rw', v, rfl, hsv⟩
            · exact c r hr
          · intro k'
            rw [d k', g3 k']
            simp only [Option.bind_some, List.filterMap_cons]
            cases dynOf k' (Rec.dyn k rw' v : Rec ι ρ σ ν) <;> simp

/-! ## whole runs -/

/-- The cache that `process_file` makes. -/
theorem loop_file (E : Env Φ D R ρ σ ν) (pairs : List (List ι × Φ)) (file : File (Rec ι ρ σ ν)) :
    ∃ c f1, frameLoop E pairs ⟨[], ⟨true, some "dynamics", 1, false, [], 8192, 0⟩, file⟩ =
        (⟨(coreRun E (visitsOf E pairs) []).1.1, c, f1⟩, (coreRun E (visitsOf E pairs) []).2) ∧
      runOps ((coreRun E (visitsOf E pairs) []).1.2.map .append) (fresh "dynamics" 1 false, file) =
        ((c, f1), none) := by
  obtain ⟨⟨c, f1⟩, h1, _, _⟩ := appends_ok (coreRun E (visitsOf E pairs) []).1.2 file
  refine ⟨c, f1, ?_, h1⟩
  rw [frameLoop_eq]
  exact visitLoop_core E (visitsOf E pairs)
    ⟨[], ⟨true, some "dynamics", 1, false, [], 8192, 0⟩, file⟩ c f1 h1

/-- The flush at the end. -/
theorem flush_end {β : Type} (l : List β) (file f1 : File β) (c : WriteCache β)
    (h : runOps (l.map .append) (fresh "dynamics" 1 false, file) = ((c, f1), none)) :
    ∃ c' f2, c.flush f1 = ((c', f2), none) ∧
      rows f2 "dynamics" = (if l = [] then rows file "dynamics" else l) ∧
      ∀ g, g ≠ "dynamics" → Dict.get? f2 g = Dict.get? file g := by
  by_cases hl : l = []
  · subst hl
    simp only [List.map_nil, runOps, Prod.mk.injEq, and_true] at h
    obtain ⟨rfl, rfl⟩ := h
    exact ⟨_, file, rfl, rfl, fun _ _ => rfl⟩
  · obtain ⟨⟨c1, f1'⟩, h1, h2, h3⟩ := appends_ok l file
    rw [h] at h1
    simp only [Prod.mk.injEq, and_true] at h1
    obtain ⟨rfl, rfl⟩ := h1
    obtain ⟨⟨c', f2⟩, h4, h5, h6, h7⟩ := inv_flush "dynamics" 1 [] l file (c, f1) h2
      (Or.inr (Or.inl (h3 hl)))
    refine ⟨c', f2, h4, ?_, h5.other⟩
    rcases h5.content with ⟨_, h8⟩ | ⟨h8, _⟩
    · simp only at h6 h8
      rw [h6, List.append_nil] at h8
      simp [h8, hl]
    · exact absurd (h7.symm.trans h8) (by decide)

/-- A run with an output file that returns. -/
theorem processFile_ok (E : Env Φ D R ρ σ ν) (pairs : List (List ι × Φ)) (ending : Option PyErr)
    (file file' : File (Rec ι ρ σ ν)) (o : Option (List (Rec ι ρ σ ν)))
    (h : processFile E (some (pairs, ending)) true file = (file', .ok o)) :
    ending = none ∧ o = none ∧ (coreRun E (visitsOf E pairs) []).2 = none ∧
      ∃ v, E.simVars = .ok v ∧ (coreRun E (visitsOf E pairs) []).1.1 ≠ [] ∧
        rows file' "dynamics" = (if (coreRun E (visitsOf E pairs) []).1.2 = []
          then rows file "dynamics" else (coreRun E (visitsOf E pairs) []).1.2) ∧
        Dict.get? file' "molecular_relaxations" =
          some (molRows E (coreRun E (visitsOf E pairs) []).1.1 v) ∧
        ∀ g, g ≠ "dynamics" → g ≠ "molecular_relaxations" → Dict.get? file' g = Dict.get? file g := by
  obtain ⟨c, f1, h1, h2⟩ := loop_file E pairs file
  obtain ⟨c', f2, h3, h4, h5⟩ := flush_end _ file f1 c h2
  simp only [processFile] at h
  rw [h1] at h
  cases herr : (coreRun E (visitsOf E pairs) []).2 with
  | some e => simp [herr] at h
  | none =>
    cases ending with
    | some e => simp [herr] at h
    | none =>
      simp only [herr, if_true, finishFile, h3] at h
      split at h
      · simp at h
      · rename_i hne
        cases hv : E.simVars with
        | error e => simp [hv] at h
        | ok v =>
          simp only [hv, Prod.mk.injEq, Except.ok.injEq] at h
          obtain ⟨rfl, rfl⟩ := h
          refine ⟨rfl, rfl, rfl, v, rfl, ?_, ?_, ?_, ?_⟩
          · intro hnil; simp [hnil] at hne
          · unfold toHdfFixed
            rw [rows_set, if_neg (by decide), h4]
          · simp [toHdfFixed, Dict.get?_set]
          · intro g hg1 hg2
            unfold toHdfFixed
            rw [Dict.get?_set, if_neg (fun e => hg2 e.symm), h5 g hg1]

/-- Conversely, when such a run returns. -/
theorem processFile_returns (E : Env Φ D R ρ σ ν) (pairs : List (List ι × Φ))
    (file : File (Rec ι ρ σ ν)) (v : ν) (h1 : (coreRun E (visitsOf E pairs) []).2 = none)
    (h2 : E.simVars = .ok v) (h3 : (coreRun E (visitsOf E pairs) []).1.1 ≠ []) :
    ∃ file', processFile E (some (pairs, none)) true file = (file', .ok none) := by
  obtain ⟨c, f1, g1, g2⟩ := loop_file E pairs file
  obtain ⟨c', f2, g3, _, _⟩ := flush_end _ file f1 c g2
  simp only [processFile]
  rw [g1, h1]
  have : (coreRun E (visitsOf E pairs) []).1.1.isEmpty = false := by
    cases hk : (coreRun E (visitsOf E pairs) []).1.1 with
    | nil => exact absurd hk h3
    | cons a b => rfl
  simp only [if_true, finishFile, g3, this, h2, Bool.false_eq_true, if_false]
  exact ⟨_, rfl⟩

theorem coreRun_rows_kf (E : Env Φ D R ρ σ ν) (vs : List (ι × Φ))
    (h : (coreRun E vs []).2 = none) (hr : (coreRun E vs []).1.2 ≠ []) :
    (coreRun E vs []).1.1 ≠ [] ∧ ∃ v, E.simVars = .ok v := by
  obtain ⟨⟨k1, _, _⟩, _, k3, k4⟩ := coreRun_known E vs [] [] (Known.nil E) h
  cases hl : (coreRun E vs []).1.2 with
  | nil => exact absurd hl hr
  | cons r rest =>
    obtain ⟨k, row, v, rfl, hv⟩ := k3 r (by rw [hl]; simp)
    refine ⟨?_, v, hv⟩
    intro hkf
    have h1 := k1 k
    rw [hkf] at h1
    have h2 := k4 k
    rw [hl] at h2
    have h3 : solo E (framesOf k vs) = none := by
      have : (solo E (framesOf k vs)).map Prod.fst = none := by simpa [Dict.get?] using h1.symm
      simpa using this
    simp [soloRows, h3, dynOf] at h2

theorem expected_nil_iff (E : Env Φ D R ρ σ ν) (vs : List (ι × Φ))
    (h : (coreRun E vs []).2 = none) :
    expected E [] vs = [] ↔ (coreRun E vs []).1.2 = [] := by
  obtain ⟨_, k2, k3, _⟩ := coreRun_known E vs [] [] (Known.nil E) h
  rw [← k2]
  constructor
  · intro h0
    cases hl : (coreRun E vs []).1.2 with
    | nil => rfl
    | cons r rest =>
      obtain ⟨k, row, v, rfl, _⟩ := k3 r (by rw [hl]; simp)
      rw [hl] at h0
      simp [dynPair] at h0
  · intro h0; rw [h0]; rfl

theorem expected_length (E : Env Φ D R ρ σ ν) (vs : List (ι × Φ))
    (h : (coreRun E vs []).2 = none) :
    (expected E [] vs).length = (coreRun E vs []).1.2.length := by
  obtain ⟨_, k2, k3, _⟩ := coreRun_known E vs [] [] (Known.nil E) h
  rw [← k2]
  generalize (coreRun E vs []).1.2 = l at k3 ⊢
  induction l with
  | nil => rfl
  | cons r l ih =>
    obtain ⟨k, row, v, rfl, _⟩ := k3 r (by simp)
    simp [dynPair, ih (fun r hr => k3 r (List.mem_cons_of_mem _ hr))]

/-- A run without output file that loops to the end. -/
theorem loop_memory (E : Env Φ D R ρ σ ν) (pairs : List (List ι × Φ)) (file : File (Rec ι ρ σ ν)) :
    ((coreRun E (visitsOf E pairs) []).1.2.length ≤ 8192 →
      frameLoop E pairs ⟨[], ⟨false, some "dynamics", 1, false, [], 8192, 0⟩, file⟩ =
        (⟨(coreRun E (visitsOf E pairs) []).1.1, ⟨false, some "dynamics", 1, false,
          (coreRun E (visitsOf E pairs) []).1.2, 8192, 0⟩, file⟩,
          (coreRun E (visitsOf E pairs) []).2)) ∧
    (8192 < (coreRun E (visitsOf E pairs) []).1.2.length →
      ∃ kf c, frameLoop E pairs ⟨[], ⟨false, some "dynamics", 1, false, [], 8192, 0⟩, file⟩ =
        (⟨kf, c, file⟩, some .assertionError)) := by
  rw [frameLoop_eq]
  constructor
  · intro h
    exact visitLoop_core E (visitsOf E pairs)
      ⟨[], ⟨false, some "dynamics", 1, false, [], 8192, 0⟩, file⟩ _ _ (appends_small false _ file h)
  · intro h
    obtain ⟨kf, hk⟩ := visitLoop_core_err E (visitsOf E pairs)
      ⟨[], ⟨false, some "dynamics", 1, false, [], 8192, 0⟩, file⟩ _ _ _ (appends_big _ file h)
    exact ⟨kf, _, hk⟩

theorem molRows_of (E : Env Φ D R ρ σ ν) (v : ν) (k : ι) : ∀ (kf : Dict ι (D × R)),
    (kf.map Prod.fst).Nodup → (molRows E kf v).filterMap (molOf k) =
      ((Dict.get? kf k).map (fun dr => (E.summary dr.2).mapIdx (fun m r => (m, r)))).getD [] := by
  intro kf
  have hone : ∀ (k' : ι) (l : List σ) , (l.mapIdx (fun m r => (Rec.mol k' m r v :
      Rec ι ρ σ ν))).filterMap (molOf k) = if k' = k then l.mapIdx (fun m r => (m, r)) else [] := by
    intro k' l
    induction l using List.reverseRecOn with
    | nil => simp
    | append_singleton l x ih =>
      rw [List.mapIdx_append, List.filterMap_append, ih]
      by_cases hk : k' = k
      · simp [molOf, hk]
      · simp [molOf, hk]
  induction kf with
  | nil => intro _; rfl
  | cons p kf ih =>
    intro hnd
    obtain ⟨k', d, r⟩ := p
    simp only [List.map_cons, List.nodup_cons] at hnd
    have hm : molRows E ((k', d, r) :: kf) v =
        (E.summary r).mapIdx (fun m r => .mol k' m r v) ++ molRows E kf v := rfl
    rw [hm, List.filterMap_append, hone, ih hnd.2]
    by_cases hk : k' = k
    · subst hk
      have : Dict.get? kf k' = none := by
        cases hg : Dict.get? kf k' with
        | none => rfl
        | some w =>
          exact absurd (List.mem_map_of_mem (Dict.mem_of_get? kf k' w hg)) hnd.1
      simp [Dict.get?, this]
    · simp [Dict.get?, hk]

/-- Times, for trackers on their own. -/
theorem solo_start (E : Env Φ D R ρ σ ν) (stamp : Φ → Int) (time : ρ → Int) (start : D → Int)
    (ht : Timed E stamp time start) (past : List Φ) (s : (D × R) × List ρ)
    (h : solo E past = some s) : ∃ g, past.head? = some g ∧ start s.1.1 = stamp g := by
  cases past with
  | nil => simp [solo] at h
  | cons g past =>
    refine ⟨g, rfl, ?_⟩
    simp only [solo] at h
    cases hd : E.newDyn g with
    | error e => simp [hd] at h
    | ok d0 =>
      cases hr : E.newRelax g with
      | error e => simp [hd, hr] at h
      | ok r0 =>
        simp only [hd, hr, Option.some.injEq] at h
        have hgen : ∀ (l : List Φ) (s0 : (D × R) × List ρ), start s0.1.1 = stamp g →
            start (l.foldl (fun s f => ((soloStep E s.1 f).1,
              s.2 ++ (soloStep E s.1 f).2.toList)) s0).1.1 = stamp g := by
          intro l
          induction l with
          | nil => intro s0 h0; exact h0
          | cons f l ih =>
            intro s0 h0
            apply ih
            rw [← h0, ← ht.keep s0.1.1 f]
            simp only [soloStep]
            split
            · rename_i d e hc; rw [hc]
            · rename_i d row hc
              rw [hc]
              split <;> rfl
        rw [← h]
        exact hgen (g :: past) ((d0, r0), []) (ht.new g d0 hd)

theorem soloStep_row (E : Env Φ D R ρ σ ν) (dr : D × R) (f : Φ) (row : ρ)
    (h : (soloStep E dr f).2 = some row) : (E.computeAll dr.1 f).2 = .ok row := by
  unfold soloStep at h
  simp only at h
  split at h
  · simp at h
  · rename_i d row' hc
    rw [hc]
    split at h
    · simp at h
    · simpa using h

theorem outcome_time (E : Env Φ D R ρ σ ν) (stamp : Φ → Int) (time : ρ → Int) (start : D → Int)
    (ht : Timed E stamp time start) (past : List Φ) (f : Φ) (row : ρ)
    (hp : past ≠ [] → solo E past ≠ none) (h : outcome E past f = some row) :
    ∃ g, (past ++ [f]).head? = some g ∧ time row = stamp f - stamp g := by
  unfold outcome at h
  cases hs : solo E past with
  | some s =>
    simp only [hs] at h
    obtain ⟨g, h1, h2⟩ := solo_start E stamp time start ht past s hs
    refine ⟨g, by cases past <;> simp_all, ?_⟩
    rw [← h2]
    exact ht.row _ f row (soloStep_row E s.1 f row h)
  | none =>
    have hnil : past = [] := by
      by_contra hne
      exact hp hne hs
    subst hnil
    simp only [hs] at h
    cases hd : E.newDyn f with
    | error e => simp [hd] at h
    | ok d0 =>
      cases hr : E.newRelax f with
      | error e => simp [hd, hr] at h
      | ok r0 =>
        simp only [hd, hr] at h
        refine ⟨f, rfl, ?_⟩
        have := ht.row _ f row (soloStep_row E (d0, r0) f row h)
        rw [ht.new f d0 hd] at this
        exact this

theorem coreRun_prefix (E : Env Φ D R ρ σ ν) : ∀ (a b : List (ι × Φ)) (kf : Dict ι (D × R)),
    (coreRun E (a ++ b) kf).2 = none → (coreRun E a kf).2 = none := by
  intro a
  induction a with
  | nil => intro b kf _; rfl
  | cons v a ih =>
    intro b kf h
    simp only [List.cons_append, coreRun] at h ⊢
    rcases hv : visit E kf v.1 v.2 with ⟨kf', e | o⟩
    · simp [hv] at h
    · cases o with
      | none => simp only [hv] at h ⊢; exact ih b kf' h
      | some row => simp only [hv] at h ⊢; exact ih b kf' h

theorem known_prefix (E : Env Φ D R ρ σ ν) (vs past rest : List (ι × Φ)) (k : ι) (f : Φ)
    (h : (coreRun E vs []).2 = none) (hvs : vs = past ++ (k, f) :: rest)
    (hne : framesOf k past ≠ []) : solo E (framesOf k past) ≠ none := by
  rw [hvs] at h
  have h1 := coreRun_prefix E past _ [] h
  obtain ⟨⟨_, k2, _⟩, _⟩ := coreRun_known E past [] [] (Known.nil E) h1
  exact k2 k hne

theorem framesOf_head (k : ι) (past rest : List (ι × Φ)) (f g : Φ)
    (h : (framesOf k past ++ [f]).head? = some g) :
    (framesOf k (past ++ (k, f) :: rest)).head? = some g := by
  have : framesOf k (past ++ (k, f) :: rest) = (framesOf k past ++ [f]) ++ framesOf k rest := by
    simp [framesOf]
  rw [this, List.head?_append, h]
  rfl

end Verif.Process
