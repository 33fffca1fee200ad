import Verif.Cli.Props
/-!
# Exactly which logging options are independent: C90
-/

namespace Verif.Cli

/-- **C90, exactly.**  The log has the level chosen by the number of `-v`, and goes to a file if and only if
one is given, exactly for the command lines without `--log-file`. -/
theorem C90_exactly (l : List Tok) :
    (((∃ g, (configure l).sink = some (.file g)) ↔ ∃ f, Tok.logFile f ∈ l) ∧
      (configure l).level =
        (if l.count .verbose = 0 then 30 else if l.count .verbose = 1 then 20 else 10)) ↔
    ∀ f, Tok.logFile f ∉ l := by
  constructor
  · rintro ⟨h1, h2⟩ f hf
    exact C90_refuted l f hf ⟨h1.2 ⟨f, hf⟩, h2⟩
  · intro h
    obtain ⟨h1, h2⟩ := C90_terminal_partial l h
    refine ⟨⟨?_, ?_⟩, h2⟩
    · rintro ⟨g, hg⟩
      rw [h1] at hg
      cases hg
    · rintro ⟨f, hf⟩
      exact absurd hf (h f)

/-- A level without a file. -/
example : (configure [.verbose, .other, .verbose]).level = 10 :=
  ((C90_exactly [.verbose, .other, .verbose]).2 (by simp)).2

end Verif.Cli
