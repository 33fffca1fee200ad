import Verif.Cli.FigureLemmas
/-!
# Property C172: the option `-v` of `sdanalysis figure`
-/

namespace Verif.Cli

/-- C172.  With `-v` after `figure` all messages of the viewer from DEBUG (10) on are written, and those of
the loggers below it, whatever the options of the group. -/
theorem C172_viewer (l : List Tok) (value : Nat) (hv : value ≠ 0) (rest : List String) (level : Nat)
    (hl : 10 ≤ level) :
    written (figureLogging l value) (["sdanalysis", "figures", "interactive_config"] ++ rest) level =
      (configure l).sink ∧ (configure l).sink.isSome := by
  refine ⟨?_, sink_isSome l⟩
  have h1 : effective (figureLogging l value) (viewerLogger ++ rest) = 10 := by
    rw [effective_below]
    · rw [show viewerLogger = ["sdanalysis", "figures"] ++ ["interactive_config"] from rfl, effective_snoc,
        levels_figureLogging]
      simp [viewerLogger, hv]
    · intro r hr _
      rw [levels_figureLogging]
      obtain ⟨x, r, rfl⟩ := List.exists_cons_of_ne_nil hr
      simp [viewerLogger]
  unfold written
  rw [root_figureLogging]
  show (if effective (figureLogging l value) (viewerLogger ++ rest) ≤ level then _ else _) = _
  rw [h1, if_pos hl]

/-- C172.  All other messages are written from the level of the group on, with or without `-v` after
`figure`; so are those of the viewer without it. -/
theorem C172_others (l : List Tok) (value : Nat) (name : List String) (level : Nat)
    (hg : ¬ ["gsd"] <+: name) (hf : ¬ ["freud"] <+: name)
    (hn : value = 0 ∨ ¬ ["sdanalysis", "figures", "interactive_config"] <+: name) :
    written (figureLogging l value) name level =
      if (configure l).level ≤ level then (configure l).sink else none := by
  have h1 : effective (figureLogging l value) name = (configure l).level := by
    have := effective_below (figureLogging l value) [] name (by
      intro r hr hp
      rw [levels_figureLogging, List.nil_append, if_neg, if_neg]
      · rintro ⟨h, h'⟩
        rcases hn with hn | hn
        · exact h' hn
        · exact hn (show viewerLogger <+: name from h ▸ hp)
      · rintro (h | h)
        · exact hg (h ▸ hp)
        · exact hf (h ▸ hp))
    rw [List.nil_append] at this
    rw [this, ← root_figureLogging l value]
    rfl
  unfold written
  rw [root_figureLogging, h1]

/-- C172.  Messages of gsd and freud are written from WARNING (30) on, whatever the options. -/
theorem C172_libraries (l : List Tok) (value : Nat) (lib : String) (h : lib = "gsd" ∨ lib = "freud")
    (rest : List String) (level : Nat) :
    written (figureLogging l value) (lib :: rest) level =
      if 30 ≤ level then (configure l).sink else none := by
  have h1 : effective (figureLogging l value) ([lib] ++ rest) = 30 := by
    rw [effective_below]
    · rw [show [lib] = [] ++ [lib] from rfl, effective_snoc, levels_figureLogging]
      rcases h with h | h <;> subst h <;> simp
    · intro r hr _
      rw [levels_figureLogging]
      obtain ⟨x, r, rfl⟩ := List.exists_cons_of_ne_nil hr
      rcases h with h | h <;> subst h <;> simp [viewerLogger]
  unfold written
  rw [root_figureLogging]
  show (if effective (figureLogging l value) ([lib] ++ rest) ≤ level then _ else _) = _
  rw [h1]

/-- `sdanalysis -v figure -v`: a debug message of the viewer is written, one of the module for order is
not, but its messages of level INFO are. -/
example : written (figureLogging [.verbose] 1) ["sdanalysis", "figures", "interactive_config"] 10 =
      some .stream ∧
    written (figureLogging [.verbose] 1) ["sdanalysis", "order"] 10 = none ∧
    written (figureLogging [.verbose] 1) ["sdanalysis", "order"] 20 = some .stream ∧
    written (figureLogging [.logFile "a".toList, .verbose] 1) ["gsd", "fl"] 20 = none :=
  ⟨rfl, rfl, rfl, rfl⟩

end Verif.Cli
