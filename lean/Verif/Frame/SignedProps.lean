import Verif.Frame.Props
/-!
# The number of molecules with signed 32 bit bodies, C59
-/

namespace Verif.Frame

/-- **C59, signed 32 bit, exactly.**  For body numbers of signed 32 bits the number of molecules is right iff no body has
the largest number of this kind and not all of them are floppy (below -1). -/
theorem C59_int32_exactly (s : Snapshot) (hN : 0 ≤ s.N)
    (hb : ∀ l, s.body = some l → ∀ b ∈ l, -2147483648 ≤ b ∧ b ≤ 2147483647)
    (n : Int) (h : getNumBodies .int32 s = .ok n) :
    IsNumMols s.body s.N n ↔
      ¬ ∃ l, s.body = some l ∧ l ≠ [] ∧ (2147483647 ∈ l ∨ ∀ b ∈ l, b ≤ -2) := by
  by_cases hmax : ∃ l, s.body = some l ∧ 2147483647 ∈ l
  · obtain ⟨l, hl, hin⟩ := hmax
    have hne : l ≠ [] := List.ne_nil_of_mem hin
    refine iff_of_false ?_ (fun hn => hn ⟨l, hl, hne, .inl hin⟩)
    obtain ⟨m, hm⟩ : ∃ m, pyMax l = some m := by
      cases l with
      | nil => exact absurd rfl hne
      | cons b bs => exact ⟨_, rfl⟩
    obtain ⟨h1, h2⟩ := pyMax_spec l m hm
    have hm' : m = 2147483647 := le_antisymm (hb l hl m h1).2 (h2 _ hin)
    have hn : n = -2147483648 := by
      have hr : rawNumMols .int32 s = -2147483648 := by
        simp only [rawNumMols, hl, hm, hm']
        rfl
      have hc : clampNumMols (-2147483648) s.N = -2147483648 := by
        unfold clampNumMols
        rw [if_neg (by omega), if_neg (by omega)]
      unfold getNumBodies at h
      simp only [hr, hc] at h
      rw [if_neg (by omega), if_neg (by omega)] at h
      cases h
      rfl
    rintro (⟨m, ⟨l', hl', _, _, h3, _⟩, hnm⟩ | ⟨_, hnN⟩) <;> omega
  · have hsame : getNumBodies .int32 s = getNumBodies .wide s := by
      have : rawNumMols .int32 s = rawNumMols .wide s := by
        unfold rawNumMols
        cases hl : s.body with
        | none => rfl
        | some l =>
          simp only
          cases hm : pyMax l with
          | none => rfl
          | some m =>
            obtain ⟨h1, h2⟩ := pyMax_spec l m hm
            have h3 := hb l hl m h1
            have h4 : m ≠ 2147483647 := fun e => hmax ⟨l, hl, e ▸ h1⟩
            simp only [Arith.succ]
            omega
      unfold getNumBodies
      rw [this]
    rw [hsame] at h
    rw [C59_exactly s hN n h, not_iff_not]
    constructor
    · rintro ⟨l, hl, hne, h1⟩
      exact ⟨l, hl, hne, .inr h1⟩
    · rintro ⟨l, hl, hne, h1 | h1⟩
      · exact absurd ⟨l, hl, h1⟩ hmax
      · exact ⟨l, hl, hne, h1⟩

/-- Bodies 0 and 1, and the largest one. -/
example : getNumBodies .int32 (sampleSnap 2 (some [0, 1])) = .ok 2 ∧
    getNumBodies .int32 (sampleSnap 2 (some [0, 2147483647])) = .ok (-2147483648) := by decide

end Verif.Frame
