import Verif.Tables.Props
/-!
# Property C54: exactly which relaxed keyframes are summarised
-/

namespace Verif.Tables

open Verif.RelaxTime

/-- The row is about this keyframe and this state, of which temperature or pressure may be unknown. -/
def Row.At (r : Row) (k : ℝ) (t p : Option ℝ) : Prop :=
  r.val "keyframe" = some k ∧ r.val "temperature" = t ∧ r.val "pressure" = p

/-- The table has molecules of this keyframe and state, and each of them has a value in all the other columns. -/
def RelaxedAt (df : Table) (k : ℝ) (t p : Option ℝ) : Prop :=
  (∃ r ∈ df.rows, r.At k t p) ∧
    ∀ r ∈ df.rows, r.At k t p → ∀ c ∈ df.columns, c ≠ "temperature" → c ≠ "pressure" →
      ∃ x, r.val c = some x ∧ x ≠ 2 ^ 32 - 1

/-- **C54, exactly.**  Every relaxed keyframe is summarised iff each has a temperature and a pressure, and neither is
the value that stands for "not relaxed". -/
theorem C54_exactly {signals : Bool} {fit : List (ℝ × ℝ) → Except PyErr Fit}
    {hmean : List ℝ → Except PyErr ℝ} {src : Store} {out : List Summary} {mol : Table}
    (h : computeRelaxations signals fit hmean src = .ok out) (hm : src.molecular = some mol) :
    (∀ k t p, RelaxedAt mol k t p → ∃ s ∈ out, s.key.1 = k ∧ some s.key.2.1 = t ∧ some s.key.2.2 = p) ↔
      ∀ k t p, RelaxedAt mol k t p →
        ∃ t' p' : ℝ, t = some t' ∧ p = some p' ∧ t' ≠ 2 ^ 32 - 1 ∧ p' ≠ 2 ^ 32 - 1 := by
  have hrows := (C54_known_partial h hm).2
  have hkeys : HasKeys mol := by
    obtain ⟨dyn', mol', m, cols, hd', hm', hmm, hcols, rfl⟩ := computeRelaxations_eq h
    rw [hm] at hm'
    obtain rfl := Option.some.inj hm'
    exact (molecular_eq hmm).1
  constructor
  · intro hall k t p hrel
    obtain ⟨s, hs, hk, ht, hp⟩ := hall k t p hrel
    have hfull := (hrows s.key.1 s.key.2.1 s.key.2.2).1 (List.mem_map.2 ⟨s, hs, rfl⟩)
    obtain ⟨r, hr, hof⟩ := hfull.1
    obtain ⟨x, hx, hx'⟩ := hfull.2 r hr hof _ hkeys.2.1
    obtain ⟨y, hy, hy'⟩ := hfull.2 r hr hof _ hkeys.2.2
    rw [hof.2.1] at hx
    rw [hof.2.2] at hy
    cases hx
    cases hy
    exact ⟨_, _, ht.symm, hp.symm, hx', hy'⟩
  · intro hall k t p hrel
    obtain ⟨t', p', rfl, rfl, ht, hp⟩ := hall k t p hrel
    have : FullyRelaxed mol k t' p' := by
      refine ⟨hrel.1, fun r hr hof c hc => ?_⟩
      by_cases h1 : c = "temperature"
      · subst h1
        exact ⟨t', hof.2.1, ht⟩
      · by_cases h2 : c = "pressure"
        · subst h2
          exact ⟨p', hof.2.2, hp⟩
        · exact hrel.2 r hr hof c hc h1 h2
    obtain ⟨s, hs, hkey⟩ := List.mem_map.1 ((hrows k t' p').2 this)
    exact ⟨s, hs, by rw [hkey], by rw [hkey], by rw [hkey]⟩

/-- The table of one molecule has a relaxed keyframe at temperature 1 and pressure 2. -/
example : RelaxedAt oneMolecule 0 (some 1) (some 2) :=
  ⟨oneMolecule_relaxed.1, fun r hr hof c hc _ _ => oneMolecule_relaxed.2 r hr hof c hc⟩

end Verif.Tables
