import Verif.Pipeline.SessionLemmas
import Verif.Process.Props
/-!
# C175: the summary in a file belongs to the other tables in it
-/

namespace Verif.Pipeline

open Verif.Motion Verif.Dynamics Verif.Relax Verif.Gsd Verif.Process Verif.Cache Verif.Names Verif.Tables

variable (L : Lib) (signals : Bool) (fit : List (ℝ × ℝ) → Except PyErr RelaxTime.Fit)
  (hmean : List ℝ → Except PyErr ℝ)

/-- **C175**, `comp-relaxations`: it leaves the other two tables alone and does not look at the table it
replaces; when it fails the file is as before; and a second run ends as the first and changes nothing. -/
theorem C175_relaxations (f : Output) :
    (compRelaxationsRun signals fit hmean f).1.tables = f.tables ∧
      (∀ e, (compRelaxationsRun signals fit hmean f).2 = some e →
        (compRelaxationsRun signals fit hmean f).1 = f) ∧
      (∀ old, (compRelaxationsRun signals fit hmean { f with relaxations := old }).2 =
          (compRelaxationsRun signals fit hmean f).2 ∧
        ((compRelaxationsRun signals fit hmean f).2 = none →
          (compRelaxationsRun signals fit hmean { f with relaxations := old }).1 =
            (compRelaxationsRun signals fit hmean f).1)) ∧
      compRelaxationsRun signals fit hmean (compRelaxationsRun signals fit hmean f).1 =
        compRelaxationsRun signals fit hmean f := by
  unfold compRelaxationsRun
  cases h : compRelaxations signals fit hmean f.tables with
  | error e => simp [h]
  | ok res => simp [h]

/-- **C175**, partial: in a session that ends with a `comp-relaxations` that succeeded, followed by any number
of further `comp-relaxations`, the table of relaxations is that of the other two tables.  Missing: a
`comp-dynamics` afterwards (`C175_refuted`), see `C175_exactly`. -/
theorem C175_current_partial (f : Output) (before : List Run) (n : ℕ)
    (hok : (compRelaxationsRun signals fit hmean (session L signals fit hmean f before)).2 = none) :
    let f' := session L signals fit hmean f (before ++ .relaxations :: List.replicate n .relaxations)
    Current signals fit hmean f' ∧ SamePoints f' ∧
      f'.tables = (session L signals fit hmean f before).tables ∧ ∃ res, f'.relaxations = some res := by
  intro f'
  have h : f' = (compRelaxationsRun signals fit hmean (session L signals fit hmean f before)).1 := by
    rw [show f' = _ from session_append f before _]
    change session L signals fit hmean (compRelaxationsRun signals fit hmean _).1 _ = _
    induction n with
    | zero => rfl
    | succ n ih =>
      rw [List.replicate_succ]
      change session L signals fit hmean (compRelaxationsRun signals fit hmean
        (compRelaxationsRun signals fit hmean _).1).1 _ = _
      rw [(C175_relaxations signals fit hmean _).2.2.2]
      exact ih
  obtain ⟨h1, h2⟩ := relaxations_current _ hok
  rw [← h] at h1 h2
  exact ⟨h1, current_points h1, by rw [h]; exact (C175_relaxations signals fit hmean _).1, h2⟩

/-- **C175**, what is in the file whatever was run: after a session that begins with no table of relaxations,
the table is that of the other two tables as they were at the last `comp-relaxations` that succeeded. -/
theorem C175_exactly (f : Output) (h0 : f.relaxations = none) (runs : List Run) :
    (∃ res, (session L signals fit hmean f runs).relaxations = some res ∧
      ∃ before after, runs = before ++ .relaxations :: after ∧
        compRelaxations signals fit hmean (session L signals fit hmean f before).tables = .ok res ∧
        ∀ mid rest, after = mid ++ .relaxations :: rest → ∃ e, compRelaxations signals fit hmean
          (session L signals fit hmean f (before ++ .relaxations :: mid)).tables = .error e) ∨
    ((session L signals fit hmean f runs).relaxations = none ∧
      ∀ before after, runs = before ++ .relaxations :: after → ∃ e, compRelaxations signals fit hmean
        (session L signals fit hmean f before).tables = .error e) := by
  induction runs using List.reverseRecOn with
  | nil => exact Or.inr ⟨h0, by simp⟩
  | append_singleton runs r ih =>
    set g := session L signals fit hmean f runs with hg
    have hs : session L signals fit hmean f (runs ++ [r]) = (r.exec L signals fit hmean g).1 := by
      rw [session_append]; rfl
    -- where a `relaxations` of the longer session is
    have hsplit : ∀ before after, runs ++ [r] = before ++ .relaxations :: after →
        (after = [] ∧ runs = before ∧ r = .relaxations) ∨
          ∃ after', after = after' ++ [r] ∧ runs = before ++ .relaxations :: after' := by
      intro before after h
      rcases List.eq_nil_or_concat after with rfl | ⟨after', x, rfl⟩
      · obtain ⟨h1, h2⟩ := List.append_inj' h rfl
        exact Or.inl ⟨rfl, h1, by simpa using h2⟩
      · rw [List.concat_eq_append, ← List.cons_append, ← List.append_assoc] at h
        obtain ⟨h1, h2⟩ := List.append_inj' h rfl
        exact Or.inr ⟨after', by simpa using h2.symm, h1⟩
    have hkeep : ∀ (_ : (r.exec L signals fit hmean g).1.relaxations = g.relaxations)
        (_ : r = .relaxations → ∃ e, compRelaxations signals fit hmean g.tables = .error e),
        (∃ res, (session L signals fit hmean f (runs ++ [r])).relaxations = some res ∧
          ∃ before after, runs ++ [r] = before ++ .relaxations :: after ∧
            compRelaxations signals fit hmean (session L signals fit hmean f before).tables = .ok res ∧
            ∀ mid rest, after = mid ++ .relaxations :: rest → ∃ e, compRelaxations signals fit hmean
              (session L signals fit hmean f (before ++ .relaxations :: mid)).tables = .error e) ∨
        ((session L signals fit hmean f (runs ++ [r])).relaxations = none ∧
          ∀ before after, runs ++ [r] = before ++ .relaxations :: after → ∃ e,
            compRelaxations signals fit hmean (session L signals fit hmean f before).tables = .error e) := by
      intro hrel herr
      rw [hs, hrel]
      rcases ih with ⟨res, h1, before, after, rfl, h2, h3⟩ | ⟨h1, h2⟩
      · refine Or.inl ⟨res, h1, before, after ++ [r], by simp, h2, ?_⟩
        intro mid rest h
        rcases hsplit (before ++ .relaxations :: mid) rest (by simp [h]) with ⟨rfl, h4, rfl⟩ | ⟨rest', rfl, h4⟩
        · obtain ⟨e, he⟩ := herr rfl
          exact ⟨e, by rw [← h4]; exact he⟩
        · refine h3 mid rest' ?_
          simpa using h4
      · refine Or.inr ⟨h1, ?_⟩
        intro before after h
        rcases hsplit before after h with ⟨rfl, rfl, rfl⟩ | ⟨after', rfl, h4⟩
        · exact herr rfl
        · exact h2 before after' h4
    cases r with
    | dynamics a b c d => exact hkeep rfl (by intro h; cases h)
    | relaxations =>
      cases hc : compRelaxations signals fit hmean g.tables with
      | error e =>
        exact hkeep (by simp [Run.exec, compRelaxationsRun, hc]) (fun _ => ⟨e, hc⟩)
      | ok res =>
        refine Or.inl ⟨res, by rw [hs]; simp [Run.exec, compRelaxationsRun, hc], runs, [], rfl, hc, ?_⟩
        intro mid rest h
        simp at h

/-- **C175**, the same `comp-dynamics` again: a summary that was that of its tables still is. -/
theorem C175_same (f : Output) (g : Cli.Globals ℝ) (c : Cli.Command) (raws : List (Raw PData)) (text : List Char)
    (before : Output) (hf : f.tables = (compDynamicsRun L g c raws text before.tables).1)
    (hcur : Current signals fit hmean f) :
    Current signals fit hmean ((Run.dynamics g c raws text).exec L signals fit hmean f).1 := by
  rw [current_iff] at hcur ⊢
  intro res hres
  have h1 := hcur res hres
  have hget : ∀ t, Dict.get? (compDynamicsRun L g c raws text f.tables).1 t = Dict.get? f.tables t := by
    intro t
    rw [hf]
    unfold compDynamicsRun processArgs
    cases h2 : Cli.compDynamics g c with
    | error e => rfl
    | ok args =>
      simp only
      cases h3 : fromFilename c.infile with
      | error e => rfl
      | ok v => exact (C28_rerun_idempotent _ _ before.tables).2.1 t
  have hstore : storeOf (compDynamicsRun L g c raws text f.tables).1 = storeOf f.tables := by
    unfold storeOf
    rw [hget, hget]
  unfold compRelaxations at h1 ⊢
  exact (congrArg _ hstore).trans h1

/-- **C175** is false: the trajectory at another temperature written to a file that has a summary already.
The summary stays, with a temperature that is not in the file any more. -/
theorem C175_refuted : ∃ c₁ c₂ : Cli.Command, c₁.outfile = c₂.outfile ∧
    ∀ f : Output, (compRelaxationsRun true noFit oldHmean
        (session cmdLib true noFit oldHmean f [.dynamics wholeG c₁ wholeRaws []])).2 = none ∧
      ((Run.dynamics wholeG c₂ wholeRaws []).exec cmdLib true noFit oldHmean (session cmdLib true noFit oldHmean f
        [.dynamics wholeG c₁ wholeRaws [], .relaxations])).2 = none ∧
      ¬ SamePoints (session cmdLib true noFit oldHmean f
        [.dynamics wholeG c₁ wholeRaws [], .relaxations, .dynamics wholeG c₂ wholeRaws []]) := by
  refine ⟨commandAt 1, commandAt 2, rfl, ?_⟩
  intro f
  obtain ⟨f1, r1, s1, hr1, hrun1, res1, hres1, hk1⟩ := whole_run 1 (by norm_num) (by norm_num) f.tables
  obtain ⟨f2, -, -, -, hrun2, -⟩ := whole_run 2 (by norm_num) (by norm_num) f1
  obtain ⟨r2, hr2, hall⟩ := temperature_stored 2 (by norm_num) wholeG rfl rfl hrun2
  have hne : r1 ≠ r2 := by
    rintro rfl
    have h1 := abs_le.1 hr1.2
    have h2 := abs_le.1 hr2.2
    linarith [h1.1, h1.2, h2.1, h2.2]
  refine ⟨by simp [session, Run.exec, hrun1, compRelaxationsRun, hres1],
    by simp [session, Run.exec, hrun1, compRelaxationsRun, hres1, hrun2], ?_⟩
  have hs : session cmdLib true noFit oldHmean f [.dynamics wholeG (commandAt 1) wholeRaws [], .relaxations,
      .dynamics wholeG (commandAt 2) wholeRaws []] = ⟨f2, some res1⟩ := by
    simp [session, Run.exec, hrun1, compRelaxationsRun, hres1, hrun2]
  rw [hs]
  intro h
  obtain ⟨w, hw, hkey⟩ := List.mem_map.1 ((hk1 0 r1 s1).2 ⟨rfl, rfl, rfl⟩)
  obtain ⟨rs, hrs, r, hr, -, ht, -⟩ := h res1 rfl w hw
  rw [hall rs hrs r hr, hkey] at ht
  have ht' : (r2 : ℝ) = r1 := Option.some.inj ht
  exact hne (by exact_mod_cast ht'.symm)

/-- A session as it should be: both commands, then `comp-relaxations` twice more. -/
example (f : Output) (f' : Output) (hf' : f' = session cmdLib true noFit oldHmean f
      ([.dynamics wholeG (commandAt 1) wholeRaws []] ++ .relaxations :: List.replicate 2 .relaxations)) :
    Current true noFit oldHmean f' ∧ SamePoints f' ∧ ∃ res, f'.relaxations = some res ∧ res ≠ [] := by
  obtain ⟨f1, r1, s1, hr1, hrun1, res1, hres1, hk1⟩ := whole_run 1 (by norm_num) (by norm_num) f.tables
  have hok : (compRelaxationsRun true noFit oldHmean
      (session cmdLib true noFit oldHmean f [.dynamics wholeG (commandAt 1) wholeRaws []])).2 = none := by
    simp [session, Run.exec, hrun1, compRelaxationsRun, hres1]
  obtain ⟨h1, h2, h3, res, h4⟩ := C175_current_partial cmdLib true noFit oldHmean f _ 2 hok
  subst hf'
  refine ⟨h1, h2, res, h4, ?_⟩
  have h5 := current_iff.1 h1 res h4
  rw [h3] at h5
  rw [show (session cmdLib true noFit oldHmean f [.dynamics wholeG (commandAt 1) wholeRaws []]).tables = f1 by
    simp [session, Run.exec, hrun1], hres1] at h5
  obtain rfl := Except.ok.inj h5
  rintro rfl
  simpa using (hk1 0 r1 s1).2 ⟨rfl, rfl, rfl⟩

end Verif.Pipeline
