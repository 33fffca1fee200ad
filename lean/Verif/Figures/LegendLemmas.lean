import Verif.Figures.LegendSpec
import Verif.Figures.Lemmas
import Mathlib.Tactic.FieldSimp
/-!
# Lemmas for C125 and C126
-/

namespace Verif.Figures

variable {C : Type}

/-- The colour of the legend at an angle is the one of the hue half a turn on. -/
theorem legend_hue (conv : Nat → Nat → Nat → C) (a : ℝ) (ha : -Real.pi ≤ a) (ha' : a < Real.pi) :
    ∃ h : Nat, h < 360 ∧ (h : ℤ) = 180 + ⌊a * 180 / Real.pi⌋ ∧
      legendOrientation conv a = some (conv h 100 60) := by
  have hp := Real.pi_pos
  have hlen : (createColours conv false).length = 360 := by simp [createColours]
  have hkey : (a - -Real.pi) * (1 / (Real.pi - -Real.pi)) / (1 / ((360 : ℕ) : ℝ)) =
      180 + a * 180 / Real.pi := by
    push_cast
    field_simp
    ring
  have hfl : ⌊180 + a * 180 / Real.pi⌋ = 180 + ⌊a * 180 / Real.pi⌋ := by
    have := Int.floor_intCast_add (180 : ℤ) (a * 180 / Real.pi)
    exact_mod_cast this
  have h1 : (-180 : ℤ) ≤ ⌊a * 180 / Real.pi⌋ := by
    rw [Int.le_floor, le_div_iff₀ hp]
    push_cast
    linarith
  have h2 : ⌊a * 180 / Real.pi⌋ < 180 := by
    rw [Int.floor_lt, div_lt_iff₀ hp]
    push_cast
    linarith
  refine ⟨(180 + ⌊a * 180 / Real.pi⌋).toNat, by omega, by omega, ?_⟩
  unfold legendOrientation linearColour
  rw [if_neg (ne_of_lt ha')]
  simp only [hlen]
  rw [hkey, hfl, if_neg (by omega), if_neg (by push_cast; omega),
    getElem?_createColours conv false _ (by omega)]
  rfl

/-- The colour in which a molecule is drawn. -/
theorem drawn_hue (conv : Nat → Nat → Nat → C) (a : ℝ) (ha : |a| ≤ Real.pi) :
    ∃ h : Nat, h < 360 ∧ (astypeInt (a * 180 / Real.pi) - h) % 360 = 0 ∧
      Drawn conv a (conv h 100 60) := by
  have hb := wholeDegrees_le a ha _ (astypeInt_whole a)
  have hl : (createColours conv false).length = 360 := by simp [createColours]
  unfold Drawn colourOrientation
  simp only [List.mapM_cons, List.mapM_nil]
  generalize astypeInt (a * 180 / Real.pi) = n at *
  unfold npIndex
  by_cases h0 : 0 ≤ n
  · refine ⟨n.toNat, by omega, by omega, ?_⟩
    rw [if_pos h0, getElem?_createColours conv false n.toNat (by omega)]
    rfl
  · refine ⟨(((360 : ℕ) : ℤ) + n).toNat, by push_cast; omega, by push_cast; omega, ?_⟩
    rw [if_neg h0, hl, if_pos (by push_cast; omega),
      getElem?_createColours conv false _ (by push_cast; omega)]
    rfl

theorem drawn_unique (conv : Nat → Nat → Nat → C) (a : ℝ) (c c' : C) (h : Drawn conv a c)
    (h' : Drawn conv a c') : c = c' := by
  unfold Drawn at h h'
  rw [h] at h'
  injection h' with h'
  injection h'

theorem mem_npUnique (l : List String) (s : String) : s ∈ npUnique l ↔ s ∈ l := by
  unfold npUnique Molecule.sortStrings
  rw [List.mem_mergeSort, List.mem_dedup]

theorem length_npUnique (l : List String) : (npUnique l).length = l.dedup.length := by
  unfold npUnique Molecule.sortStrings
  rw [List.length_mergeSort]

theorem idxOf?_some (l : List String) (s : String) (h : s ∈ l) :
    ∃ k, l.idxOf? s = some k ∧ l[k]? = some s := by
  cases hk : l.idxOf? s with
  | none => exact absurd h (List.idxOf?_eq_none_iff.1 hk)
  | some k =>
    refine ⟨k, rfl, ?_⟩
    rw [List.idxOf?_eq_some_iff] at hk
    obtain ⟨hlt, he, _⟩ := hk
    rw [List.getElem?_eq_getElem hlt]
    simpa using he

theorem nodup_npUnique (l : List String) : (npUnique l).Nodup := by
  unfold npUnique Molecule.sortStrings
  exact (List.mergeSort_perm _ _).nodup_iff.2 (List.nodup_dedup l)

theorem idxOf?_getElem (l : List String) (hl : l.Nodup) (k : Nat) (hk : k < l.length) :
    l.idxOf? l[k] = some k := by
  obtain ⟨j, h1, h2⟩ := idxOf?_some l l[k] (List.getElem_mem hk)
  have hj : j < l.length := (List.getElem?_eq_some_iff.1 h2).1
  rw [List.getElem?_eq_getElem hj] at h2
  injection h2 with h2
  rw [h1, (List.Nodup.getElem_inj_iff hl).1 h2]

/-- With factors that contain all categories and not more of them than colours, every category has
a colour of its own. -/
theorem factorColour_own (factors : List String) (palette : List C) (missing : C)
    (hp : Distinct palette) (column : List String) (hf : ∀ s ∈ column, s ∈ factors)
    (hn : factors.length ≤ palette.length) :
    OwnColours (factorColour factors palette missing) palette column := by
  have key : ∀ s ∈ column, ∃ k : Nat, ∃ c, factors[k]? = some s ∧ palette[k]? = some c ∧
      factorColour factors palette missing s = c := by
    intro s hs
    obtain ⟨k, h1, h2⟩ := idxOf?_some factors s (hf s hs)
    have hk : k < factors.length := by
      rw [List.getElem?_eq_some_iff] at h2
      exact h2.1
    refine ⟨k, palette[k], h2, List.getElem?_eq_getElem (by omega), ?_⟩
    simp [factorColour, h1, List.getElem?_eq_getElem (show k < palette.length by omega)]
  refine ⟨fun s hs => ?_, fun s hs t ht he => ?_⟩
  · obtain ⟨k, c, _, h2, h3⟩ := key s hs
    rw [h3]
    exact List.mem_of_getElem? h2
  · obtain ⟨k, c, h1, h2, h3⟩ := key s hs
    obtain ⟨k', c', h1', h2', h3'⟩ := key t ht
    rw [h3, h3'] at he
    subst he
    have := hp k k' c h2 h2'
    subst this
    rw [h1] at h1'
    injection h1'

end Verif.Figures
