import Verif.Cli.FigureModel
/-!
# Lemmas on the loggers of `sdanalysis figure`
-/

namespace Verif.Cli

theorem sink_isSome (l : List Tok) : (configure l).sink.isSome := by
  unfold configure
  cases fileFirst l <;> rfl

theorem root_figureLogging (l : List Tok) (value : Nat) : (figureLogging l value).root = configure l := by
  unfold figureLogging interactiveVerbosity
  by_cases h : value = 0
  · rw [if_pos h]
  · rw [if_neg h]
    have := sink_isSome l
    revert this
    show _ → basicConfig none 10 (configure l) = configure l
    unfold basicConfig
    cases (configure l).sink with
    | none => intro h; simp at h
    | some s => intro _; rfl

/-- The level that is looked up, when exactly three or two names have one. -/
theorem levels_figureLogging (l : List Tok) (value : Nat) (n : List String) :
    Dict.get? (figureLogging l value).levels n =
      if n = ["gsd"] ∨ n = ["freud"] then some 30
      else if n = viewerLogger ∧ value ≠ 0 then some 10 else none := by
  unfold figureLogging interactiveVerbosity
  by_cases h : value = 0
  · rw [if_pos h]
    by_cases h1 : n = ["gsd"]
    · subst h1; simp [imported, Dict.get?]
    by_cases h2 : n = ["freud"]
    · subst h2; simp [imported, Dict.get?]
    simp [imported, Dict.get?, h1, h2, h, Ne.symm h1, Ne.symm h2]
  · rw [if_neg h]
    by_cases h1 : n = ["gsd"]
    · subst h1; simp [imported, Dict.get?, Dict.set, viewerLogger]
    by_cases h2 : n = ["freud"]
    · subst h2; simp [imported, Dict.get?, Dict.set, viewerLogger]
    by_cases h3 : n = viewerLogger
    · subst h3; simp [imported, Dict.get?, Dict.set, viewerLogger, h]
    simp [imported, Dict.get?, Dict.set, viewerLogger] at h1 h2 h3 ⊢
    simp [h1, h2, h3, Ne.symm h1, Ne.symm h2, Ne.symm h3]

theorem effective_snoc (lg : Logging) (n : List String) (x : String) :
    effective lg (n ++ [x]) =
      (match Dict.get? lg.levels (n ++ [x]) with
        | some (k + 1) => k + 1
        | _ => effective lg n) := by
  unfold effective
  rw [List.reverse_append]
  show effectiveFrom lg (x :: n.reverse) = _
  rw [effectiveFrom]
  simp only [List.reverse_cons, List.reverse_reverse]
  rfl

/-- Nothing is set below a name: its descendants have its level. -/
theorem effective_below (lg : Logging) (n : List String) (rest : List String)
    (h : ∀ r, r ≠ [] → r <+: rest → Dict.get? lg.levels (n ++ r) = none) :
    effective lg (n ++ rest) = effective lg n := by
  induction hk : rest.length generalizing rest with
  | zero => rw [List.eq_nil_of_length_eq_zero hk, List.append_nil]
  | succ k ih =>
    rcases List.eq_nil_or_concat rest with h0 | ⟨r, x, rfl⟩
    · subst h0; simp at hk
    · rw [List.concat_eq_append] at h hk ⊢
      rw [← List.append_assoc, effective_snoc, List.append_assoc,
        h (r ++ [x]) (by simp) (List.prefix_rfl)]
      refine ih r (fun r' h1 h2 => h r' h1 (h2.trans (List.prefix_append r [x]))) ?_
      simpa using hk

end Verif.Cli
