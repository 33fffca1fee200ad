import Verif.Lammps.NumberLemmas
import Verif.Lammps.Props
/-!
# C158: the numbers of a lammps file
-/

namespace Verif.Lammps

open Verif.Text

variable {F : Type} [Sub F]

/-- **C158.**  `int` gives the number that is written, for exactly the texts that are whole numbers. -/
theorem C158_int (s : List Char) (i : Int) : pyInt s = some i ↔ Numeral s i := by
  rw [pyInt_stripped, numeral_iff]
  constructor
  · rintro ⟨sg, hsg, body, n, hb, hs, hi⟩
    obtain ⟨a, b, ha, hb', h⟩ := strip_split s
    exact ⟨a, b, sg, body, n, ha, hb', hsg, hb, by rw [← hs]; exact h, hi⟩
  · rintro ⟨a, b, sg, body, n, ha, hb, hsg, hbody, rfl, hi⟩
    refine ⟨sg, hsg, body, n, hbody, ?_, hi⟩
    obtain ⟨c, cs, hc, hsp, -⟩ := hbody.head
    apply strip_white _ _ _ ha hb
    · rw [hc]; simp
    · intro x hx
      simp only [signs, List.mem_cons, List.not_mem_nil, or_false] at hsg
      rcases hsg with rfl | rfl | rfl
      · rw [hc] at hx
        obtain rfl : c = x := Option.some.inj hx
        exact hsp
      · obtain rfl : '+' = x := Option.some.inj hx
        decide
      · obtain rfl : '-' = x := Option.some.inj hx
        decide
    · intro x hx
      rw [List.getLast?_append_of_ne_nil _ (by rw [hc]; simp)] at hx
      exact hbody.last x hx

example : Numeral " -1_20\n".toList (-120) :=
  ⟨[' '], ['\n'], (['-'], -1), [1], [[2, 0]], by intro c hc; simp_all, by intro c hc; simp_all, by decide,
    ⟨by decide, by decide⟩, by intro g hg; obtain rfl := List.mem_singleton.1 hg; exact ⟨by decide, by decide⟩,
    by decide, by decide⟩

/-- **C158.**  A text stands for at most one number. -/
theorem C158_unique (s : List Char) (i j : Int) (hi : Numeral s i) (hj : Numeral s j) : i = j :=
  Option.some.inj (((C158_int s i).2 hi).symm.trans ((C158_int s j).2 hj))

/-- **C158.**  Every frame that is delivered is written in the file, after a title that says so and with its own step
and its own number of atoms, both as whole numbers; each of its columns has a place for each of these atoms. -/
theorem C158_written (float : List Char → Option F) (src : List Char) :
    ∀ f ∈ (parseLammps float src).1, ∃ (pre line line' rest : List Char) (n : Nat),
      src = pre ++ "ITEM: TIMESTEP\n".toList ++ line ++ "ITEM: NUMBER OF ATOMS\n".toList ++ line' ++ rest ∧
      Numeral line f.timestep ∧ Numeral line' n ∧ ∀ p ∈ f.cols, p.2.length = n := by
  intro f hf
  obtain ⟨src', hsuf, rest, hread⟩ := parse_mem float src f hf
  obtain ⟨pre, rfl⟩ := hsuf
  obtain ⟨line, line', tail, n, h1, h2, h3, h4⟩ := readFrame_inv float src' rest f hread
  refine ⟨pre, line, line', tail, n, ?_, (C158_int _ _).1 h2, (C158_int _ _).1 h3, h4⟩
  rw [h1]
  simp only [List.append_assoc]

/-- **C158.**  When the line below the first title is no whole number, nothing is delivered. -/
theorem C158_refused (float : List Char → Option F) (line rest : List Char) (hnl : '\n' ∉ line)
    (hno : ∀ i, ¬ Numeral (line ++ ['\n']) i) :
    parseLammps float ("ITEM: TIMESTEP\n".toList ++ line ++ '\n' :: rest) = ([], some .valueError) := by
  have hp : pyInt (line ++ ['\n']) = none := by
    cases h : pyInt (line ++ ['\n']) with
    | none => rfl
    | some i => exact absurd ((C158_int _ _).1 h) (hno i)
  apply parseLammps_error float _ .valueError
  · intro h
    exact absurd (congrArg List.length h) (by simp)
  · have e1 : "ITEM: TIMESTEP\n".toList ++ line ++ '\n' :: rest = "ITEM: TIMESTEP".toList ++ '\n' :: (line ++ '\n' :: rest) := by
      rw [show "ITEM: TIMESTEP\n".toList = "ITEM: TIMESTEP".toList ++ ['\n'] from rfl]
      simp only [List.append_assoc, List.cons_append, List.nil_append]
    rw [e1]
    unfold readFrame
    rw [readline_line _ _ (by decide), if_neg (fun h => h rfl)]
    simp only
    rw [readline_line _ _ hnl]
    simp only
    rw [pyInt_strip, hp]

example : '\n' ∉ "1e3".toList ∧ ∀ i, ¬ Numeral ("1e3".toList ++ ['\n']) i := by
  refine ⟨by decide, fun i h => ?_⟩
  have := (C158_int _ _).2 h
  rw [show pyInt ("1e3".toList ++ ['\n']) = none by decide] at this
  cases this

end Verif.Lammps
