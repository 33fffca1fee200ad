import Verif.Names.ParamProps
/-!
# Exactly which assignments to a parameter take effect: C108
-/

namespace Verif.Names

/-- **C108, exactly.**  A value that the constructor takes for a parameter can be assigned, and is then
read back, if and only if it is not None, or the parameter is none of the three files, or it is one of
the two for the output and reads as without a value already. -/
theorem C108_exactly (mol cwd : Val) (d d1 : Attrs) (key : String)
    (hkey : key ∈ (fields .none).map Prod.fst) (v : Val) (h : construct mol [(key, v)] = .ok d1) :
    ((setAttr d key v).2 = none ∧
      ∃ r, getAttr cwd (setAttr d key v).1 key = .ok r ∧ Reads cwd key v r) ↔
    (v ≠ .none ∨ key ∉ fileParams ∨
      (key ≠ "infile" ∧ getAttr cwd d key = .ok (if key = "output" then cwd else .none))) := by
  by_cases hv : v ≠ .none ∨ key ∉ fileParams
  · refine ⟨fun _ => ?_, fun _ => (C108_assign_partial cwd d key hkey v hv).1 mol d1 h⟩
    rcases hv with hv | hv
    · exact Or.inl hv
    · exact Or.inr (Or.inl hv)
  · rw [not_or, not_not, not_not] at hv
    obtain ⟨rfl, hk⟩ := hv
    have hk' := mem_fileParams.1 hk
    obtain ⟨h1, h2, h3, -⟩ := C108_none mol d
    have hreads : ∀ r, Reads cwd key .none r ↔ r = if key = "output" then cwd else .none := by
      intro r
      unfold Reads
      rw [if_pos hk']
      simp
    simp only [ne_eq, not_true_eq_false, hk, false_or]
    rcases hk' with rfl | rfl | rfl
    · rw [h3]
      simp
    · rw [h1]
      constructor
      · rintro ⟨-, r, hr, hr'⟩
        exact ⟨by decide, by rw [hr, (hreads r).1 hr']⟩
      · rintro ⟨-, hr⟩
        exact ⟨rfl, _, hr, (hreads _).2 rfl⟩
    · rw [h2]
      constructor
      · rintro ⟨-, r, hr, hr'⟩
        exact ⟨by decide, by rw [hr, (hreads r).1 hr']⟩
      · rintro ⟨-, hr⟩
        exact ⟨rfl, _, hr, (hreads _).2 rfl⟩

/-- Assigning None to the output file of an object that has one has no effect. -/
example (mol cwd : Val) (d1 : Attrs) (h : construct mol [("outfile", .none)] = .ok d1) :
    ¬ ((setAttr [("_outfile", .path "a.h5".toList)] "outfile" .none).2 = none ∧
      ∃ r, getAttr cwd (setAttr [("_outfile", .path "a.h5".toList)] "outfile" .none).1 "outfile" = .ok r ∧
        Reads cwd "outfile" .none r) := by
  rw [C108_exactly mol cwd _ d1 "outfile" (by decide) .none h]
  simp [fileParams, getAttr, stored, Dict.get?]

end Verif.Names
