import Verif.Figures.LegendLemmas
/-!
# C125, C126: the legend and the colours of categories
-/

namespace Verif.Figures

variable {C : Type}

/-! ### C125: the legend of orientations -/

/-- **C125 (partial).**  The full statement: for every angle from -π to π the legend shows the colour
in which molecules of that angle are drawn.  Proved is that for negative angles it shows the colour
of the molecules half a turn from it. -/
theorem C125_negative_partial (conv : Nat → Nat → Nat → C) (a : ℝ) (ha : -Real.pi ≤ a)
    (ha' : a < 0) : ∃ c, legendOrientation conv a = some c ∧ Drawn conv (a + Real.pi) c := by
  have hp := Real.pi_pos
  obtain ⟨h, hh, he, hl⟩ := legend_hue conv a ha (by linarith)
  obtain ⟨h', hh', he', hd⟩ := drawn_hue conv (a + Real.pi) (by rw [abs_le]; constructor <;> linarith)
  have e : (a + Real.pi) * 180 / Real.pi = ((180 : ℤ) : ℝ) + a * 180 / Real.pi := by
    push_cast
    field_simp
    ring
  have hn : (0 : ℝ) ≤ (a + Real.pi) * 180 / Real.pi := by
    apply div_nonneg _ hp.le
    nlinarith
  rw [astypeInt, if_pos hn, e, Int.floor_intCast_add] at he'
  have : h = h' := by omega
  rw [← this] at hd
  exact ⟨_, hl, hd⟩

/-- **C125 (partial).**  For the other angles the legend shows the colour of the molecules half a turn
from it, or of the hue before that. -/
theorem C125_positive_partial (conv : Nat → Nat → Nat → C) (a : ℝ) (ha : 0 ≤ a)
    (ha' : a < Real.pi) : ∃ h h' : Nat, h < 360 ∧ h' < 360 ∧
      legendOrientation conv a = some (conv h 100 60) ∧ Drawn conv (a - Real.pi) (conv h' 100 60) ∧
      (h' = h ∨ h' = (h + 1) % 360) := by
  have hp := Real.pi_pos
  obtain ⟨h, hh, he, hl⟩ := legend_hue conv a (by linarith) ha'
  obtain ⟨h', hh', he', hd⟩ := drawn_hue conv (a - Real.pi) (by rw [abs_le]; constructor <;> linarith)
  have e : (a - Real.pi) * 180 / Real.pi = a * 180 / Real.pi - ((180 : ℤ) : ℝ) := by
    push_cast
    field_simp
  have hn : ¬ (0 : ℝ) ≤ (a - Real.pi) * 180 / Real.pi := by
    rw [not_le]
    apply div_neg_of_neg_of_pos _ hp
    nlinarith
  rw [astypeInt, if_neg hn, e, Int.ceil_sub_intCast] at he'
  have h1 := Int.ceil_le_floor_add_one (a * 180 / Real.pi)
  have h2 := Int.floor_le_ceil (a * 180 / Real.pi)
  exact ⟨h, h', hh, hh', hl, hd, by omega⟩

example : -Real.pi ≤ -(Real.pi / 3) ∧ -(Real.pi / 3) < 0 ∧ 0 ≤ Real.pi / 3 ∧
    Real.pi / 3 < Real.pi := by
  have := Real.pi_pos
  refine ⟨?_, ?_, ?_, ?_⟩ <;> linarith

/-- **C125 is false** for every angle: if the hues can be told apart, the legend nowhere shows the
colour in which molecules of that angle are drawn. -/
theorem C125_refuted (conv : Nat → Nat → Nat → C) (hc : HuesDiffer conv) (a : ℝ)
    (ha : |a| ≤ Real.pi) (c c' : C) (hl : legendOrientation conv a = some c)
    (hd : Drawn conv a c') : c ≠ c' := by
  intro hcc
  subst hcc
  have hp := Real.pi_pos
  obtain ⟨h', hh', he', hd'⟩ := drawn_hue conv a ha
  have e1 := drawn_unique conv a _ _ hd hd'
  rcases eq_or_lt_of_le (abs_le.1 ha).2 with hpi | hlt
  · unfold legendOrientation linearColour at hl
    rw [if_pos hpi] at hl
    have hlen : (createColours conv false).length = 360 := by simp [createColours]
    rw [hlen, getElem?_createColours conv false _ (by omega)] at hl
    injection hl with hl
    have e2 := hc 359 h' (by omega) hh' (by rw [← e1, ← hl]; rfl)
    rw [hpi] at he'
    have e3 : Real.pi * 180 / Real.pi = ((180 : ℤ) : ℝ) := by
      push_cast
      field_simp
    rw [e3, astypeInt, if_pos (by norm_num), Int.floor_intCast] at he'
    omega
  · obtain ⟨h, hh, he, hl'⟩ := legend_hue conv a (abs_le.1 ha).1 hlt
    rw [hl] at hl'
    injection hl' with hl'
    have e2 := hc h h' hh hh' (by rw [← hl', ← e1])
    subst e2
    have h1 := Int.ceil_le_floor_add_one (a * 180 / Real.pi)
    have h2 := Int.floor_le_ceil (a * 180 / Real.pi)
    unfold astypeInt at he'
    split at he' <;> omega

example : HuesDiffer (fun h s l => (h, s, l)) := by
  intro h h' _ _ e
  simpa using e

/-- **C125.** The legend of the classification is right: the crystal is drawn as dark as the colour
labelled "Crystal", and the liquid as the one labelled "Liquid". -/
theorem C125_class (conv : Nat → Nat → Nat → C) : ∃ sc sl lc ll : Nat,
    (∀ x, (x, "Crystal") ∈ classLabels → legendClass conv x = some (conv 0 0 lc)) ∧
    (∀ x, (x, "Liquid") ∈ classLabels → legendClass conv x = some (conv 0 0 ll)) ∧
    (∀ a c, Shade conv false a c → ∃ h, c = conv h sc lc) ∧
    (∀ a c, Shade conv true a c → ∃ h, c = conv h sl ll) ∧ lc < ll := by
  refine ⟨100, 80, 60, 80, ?_, ?_, ?_, ?_, by omega⟩
  · intro x hx
    have : x = 1 / 2 := by simpa [classLabels] using hx
    subst this
    unfold legendClass linearColour
    have : ⌊((1 : ℝ) / 2 - 0) * (1 / (2 - 0)) / (1 / ([conv 0 0 60, conv 0 0 80].length : ℝ))⌋ = 0 := by
      rw [Int.floor_eq_iff]
      norm_num
    rw [if_neg (by norm_num)]
    simp only [this]
    simp
  · intro x hx
    have : x = 3 / 2 := by simpa [classLabels] using hx
    subst this
    unfold legendClass linearColour
    have : ⌊((3 : ℝ) / 2 - 0) * (1 / (2 - 0)) / (1 / ([conv 0 0 60, conv 0 0 80].length : ℝ))⌋ = 1 := by
      rw [Int.floor_eq_iff]
      norm_num
    rw [if_neg (by norm_num)]
    simp only [this]
    simp
  · rintro a c ⟨n, h, _, _, _, rfl⟩
    exact ⟨h, rfl⟩
  · rintro a c ⟨n, h, _, _, _, rfl⟩
    exact ⟨h, rfl⟩

/-! ### C126: colours of categories -/

/-- **C126 (partial).**  The full statement: in every figure of categories each category has a colour
of its own, the same in all figures.  Proved for as many categories as there are colours (ten unless
a palette is given): without `factors` the colours within one figure are those of the palette and all
different. -/
theorem C126_own_partial (palette : List C) (missing : C) (hp : Distinct palette)
    (column : List String) (hn : column.dedup.length ≤ palette.length) :
    ∃ colour : String → C, circleColours none palette missing column = column.map colour ∧
      OwnColours colour palette column :=
  ⟨_, rfl, factorColour_own _ palette missing hp column
    (fun s hs => (mem_npUnique column s).2 hs) (by rw [Option.getD_none, length_npUnique]; exact hn)⟩

/-- **C126 (partial).**  With the same `factors`, containing all categories and no more than there are
colours, the colours are also the same in all figures. -/
theorem C126_same_partial (factors : List String) (palette : List C) (missing : C)
    (hp : Distinct palette) (hn : factors.length ≤ palette.length) :
    ∃ colour : String → C, ∀ column, (∀ s ∈ column, s ∈ factors) →
      circleColours (some factors) palette missing column = column.map colour ∧
      OwnColours colour palette column :=
  ⟨_, fun column hf => ⟨rfl, factorColour_own factors palette missing hp column hf hn⟩⟩

example : Distinct [0, 1, 2] ∧ (["a", "b", "a"].dedup).length ≤ [0, 1, 2].length := by
  refine ⟨?_, by decide⟩
  intro i j c hi hj
  match i, j with
  | 0, 0 | 1, 1 | 2, 2 => rfl
  | 0, 1 | 0, 2 | 1, 0 | 1, 2 | 2, 0 | 2, 1 => simp at hi hj; omega
  | i + 3, _ => simp at hi
  | 0, j + 3 | 1, j + 3 | 2, j + 3 => simp at hj

/-- **C126 is false** for figures with more categories than colours: whatever the palette, as soon as
there are two more categories than colours, two categories have the same colour, the one for missing
values. -/
theorem C126_many_refuted (palette : List C) (missing : C) (column : List String)
    (hn : palette.length + 2 ≤ column.dedup.length) :
    ∃ s ∈ column, ∃ t ∈ column, s ≠ t ∧ ∃ colour : String → C,
      circleColours none palette missing column = column.map colour ∧
      colour s = missing ∧ colour t = missing := by
  have hl := length_npUnique column
  have h1 : palette.length < (npUnique column).length := by omega
  have h2 : palette.length + 1 < (npUnique column).length := by omega
  refine ⟨(npUnique column)[palette.length], (mem_npUnique column _).1 (List.getElem_mem h1),
    (npUnique column)[palette.length + 1], (mem_npUnique column _).1 (List.getElem_mem h2), ?_, _,
    rfl, ?_, ?_⟩
  · intro e
    have := (List.Nodup.getElem_inj_iff (nodup_npUnique column)).1 e
    omega
  · simp [factorColour, idxOf?_getElem _ (nodup_npUnique column) _ h1]
  · simp [factorColour, idxOf?_getElem _ (nodup_npUnique column) _ h2]

/-- Twelve categories, with the ten colours of the palette that `plot_frame` uses. -/
example : (List.range 10).length + 2 ≤ (((List.range 12).map
    (fun n => String.ofList (List.replicate n 'a'))).dedup).length := by
  rw [List.dedup_eq_self.2]
  · simp
  · apply List.Nodup.map _ List.nodup_range
    intro m n e
    simpa using congrArg (fun s => s.toList.length) e

/-- **C126 is false** between figures: the category `b` has the second colour of the palette where
`a` is there as well, and the first where it is not. -/
theorem C126_figures_refuted (c₀ c₁ : C) (rest : List C) (missing : C) :
    circleColours none (c₀ :: c₁ :: rest) missing ["a", "b"] = [c₀, c₁] ∧
      circleColours none (c₀ :: c₁ :: rest) missing ["b"] = [c₀] := by
  have e1 : npUnique ["a", "b"] = ["a", "b"] := by
    have : (["a", "b"] : List String).dedup = ["a", "b"] := by decide
    rw [npUnique, this]
    exact List.mergeSort_of_pairwise (by decide)
  have e2 : npUnique ["b"] = ["b"] := by
    rw [npUnique, show (["b"] : List String).dedup = ["b"] by decide]
    exact List.mergeSort_of_pairwise (by decide)
  unfold circleColours
  simp only [Option.getD_none, e1, e2]
  have i1 : List.idxOf? "a" ["a", "b"] = some 0 := by decide
  have i2 : List.idxOf? "b" ["a", "b"] = some 1 := by decide
  have i3 : List.idxOf? "b" ["b"] = some 0 := by decide
  simp [factorColour, i1, i2, i3]

/-- **C126, exactly**, for one figure without `factors`: each category has a colour of the palette to
itself if and only if there are no more categories than colours (the colour for missing values not
being one of them). -/
theorem C126_exactly (palette : List C) (missing : C) (hp : Distinct palette)
    (hmiss : missing ∉ palette) (column : List String) :
    (∃ colour : String → C, circleColours none palette missing column = column.map colour ∧
      OwnColours colour palette column) ↔ column.dedup.length ≤ palette.length := by
  refine ⟨fun ⟨colour, h, hown, _⟩ => ?_, C126_own_partial palette missing hp column⟩
  by_contra hn
  have hl := length_npUnique column
  have h1 : palette.length < (npUnique column).length := by omega
  have hm : (npUnique column)[palette.length] ∈ column :=
    (mem_npUnique column _).1 (List.getElem_mem h1)
  have hc : factorColour (npUnique column) palette missing (npUnique column)[palette.length] =
      colour (npUnique column)[palette.length] := (List.map_inj_left.1 h) _ hm
  have hz := hown _ hm
  rw [← hc] at hz
  simp [factorColour, idxOf?_getElem _ (nodup_npUnique column) _ h1] at hz
  exact hmiss hz

/-- Two categories and one colour. -/
example : ¬ ∃ colour : String → Nat, circleColours none [0] 7 ["a", "b"] = ["a", "b"].map colour ∧
    OwnColours colour [0] ["a", "b"] := by
  rw [C126_exactly [0] 7 (by
    intro i j c hi hj
    match i, j with
    | 0, 0 => rfl
    | i + 1, _ => simp at hi
    | 0, j + 1 => simp at hj) (by simp)]
  decide

end Verif.Figures
