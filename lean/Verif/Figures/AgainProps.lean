import Verif.Figures.PlotProps
/-!
# Exactly when an older figure agrees with a newer one: C142
-/

namespace Verif.Figures

open Verif.Frame (View)
open Verif.Molecule (Mol)

variable {C : Type}

theorem idxOf?_iff {l : List String} (hl : l.Nodup) (s : String) (i : ℕ) :
    l.idxOf? s = some i ↔ l[i]? = some s := by
  induction l generalizing i with
  | nil => simp
  | cons a l ih =>
    rw [List.nodup_cons] at hl
    rw [List.idxOf?_cons]
    by_cases h : a = s
    · subst h
      simp only [beq_self_eq_true, if_true, Option.some.injEq]
      constructor
      · rintro rfl; rfl
      · intro h
        cases i with
        | zero => rfl
        | succ i => exact absurd (List.mem_of_getElem? (by simpa using h)) hl.1
    · simp only [beq_iff_eq, h, if_false, Option.map_eq_some_iff]
      cases i with
      | zero => simp [h]
      | succ i => simp [ih hl.2]

/-- Colours agree on all categories of the second list exactly when it is the beginning of the first. -/
theorem same_colours_iff {first second : List String} (h1 : first.Nodup) (h2 : second.Nodup)
    {palette : List C} (hp : palette.Nodup) {missing : C} (hm : missing ∉ palette)
    (hlen : second.length ≤ palette.length) :
    (∀ s ∈ second, factorColour first palette missing s = factorColour second palette missing s) ↔
      second <+: first := by
  constructor
  · intro h
    rw [List.prefix_iff_getElem?]
    intro i hi
    have e2 : second.idxOf? second[i] = some i := (idxOf?_iff h2 _ _).2 (List.getElem?_eq_getElem hi)
    have hip : i < palette.length := by omega
    have hs := h second[i] (List.getElem_mem hi)
    unfold factorColour at hs
    rw [e2] at hs
    simp only [List.getElem?_eq_getElem hip, Option.getD_some] at hs
    cases e1 : first.idxOf? second[i] with
    | none =>
      rw [e1] at hs
      simp only at hs
      exact absurd (hs ▸ List.getElem_mem hip) hm
    | some k =>
      rw [e1] at hs
      simp only at hs
      rcases Nat.lt_or_ge k palette.length with hk | hk
      · rw [List.getElem?_eq_getElem hk, Option.getD_some] at hs
        have : k = i := (hp.getElem_inj_iff).1 hs
        subst this
        exact (idxOf?_iff h1 _ _).1 e1
      · rw [List.getElem?_eq_none hk, Option.getD_none] at hs
        exact absurd (hs ▸ List.getElem_mem hip) hm
  · rintro ⟨t, rfl⟩ s hs
    obtain ⟨i, hi⟩ := List.getElem?_of_mem hs
    have hlt := (List.getElem?_eq_some_iff.1 hi).1
    have e1 : (second ++ t).idxOf? s = some i :=
      (idxOf?_iff h1 _ _).2 (by rw [List.getElem?_append_left hlt]; exact hi)
    have e2 : second.idxOf? s = some i := (idxOf?_iff h2 _ _).2 hi
    unfold factorColour
    rw [e1, e2]

/-- **C142, exactly.**  A frame is drawn into the source of an older figure, both with colours for
categories and without factors, in a palette of different colours with enough of them for the new data.
The older figure shows what the new one shows if and only if the categories of the new data, in order,
are the first ones of those the older figure was made with. -/
theorem C142_exactly (conv : Nat → Nat → Nat → C) (category10 : List C) (missing : C)
    (colormap : Option (List C))
    (v₁ v₂ : View) (mol₁ mol₂ : Mol) (orderFunction₁ orderFunction₂ : Option (View → OrderArr))
    (orderList₁ orderList₂ : Option OrderArr) (source : Option Nat)
    (sources₀ sources₁ sources₂ sources₃ : List (Data C)) (old new : Fig C)
    (hs : ∀ i, source = some i → i < sources₀.length)
    (h₁ : plotFrame conv category10 sources₀ v₁ orderFunction₁ orderList₁ source mol₁ true
      none colormap = (sources₁, .ok old))
    (hl : old.source < sources₂.length)
    (h₂ : plotFrame conv category10 sources₂ v₂ orderFunction₂ orderList₂ (some old.source) mol₂
      true none colormap = (sources₃, .ok new))
    (d₁ d₂ : Data C) (hd₁ : sources₁[old.source]? = some d₁) (hd₂ : sources₃[new.source]? = some d₂)
    (hcol : d₂.x.length = d₂.colour.length ∧ d₂.y.length = d₂.colour.length ∧
      d₂.radius.length = d₂.colour.length)
    (hp : (colormap.getD category10).Nodup) (hm : missing ∉ colormap.getD category10)
    (hlen : (npUnique (categoriesOf d₂.colour)).length ≤ (colormap.getD category10).length) :
    old.picture missing sources₃ = new.picture missing sources₃ ↔
      npUnique (categoriesOf d₂.colour) <+: npUnique (categoriesOf d₁.colour) := by
  obtain ⟨e₁, -, he₁, -, hm₁⟩ := plotFrame_ok h₁ hs
  obtain ⟨e₂, -, he₂, hi, hm₂⟩ := plotFrame_ok h₂ (by rintro i ⟨⟩; exact hl)
  rw [hd₁] at he₁
  obtain rfl := Option.some.inj he₁
  rw [hd₂] at he₂
  obtain rfl := Option.some.inj he₂
  have hsrc := hi old.source rfl
  rw [← same_colours_iff (nodup_npUnique _) (nodup_npUnique _) hp hm hlen]
  simp only [if_true, Option.getD_none] at hm₁ hm₂
  have hpic : old.picture missing sources₃ = new.picture missing sources₃ ↔
      ∀ p ∈ d₂.colour, old.ink missing p = new.ink missing p := by
    unfold Fig.picture
    rw [hsrc] at hd₂
    rw [hsrc, hd₂]
    simp only [Option.some.injEq]
    obtain ⟨c1, c2, c3⟩ := hcol
    constructor
    · intro h p hpm
      obtain ⟨i, hi⟩ := List.getElem?_of_mem hpm
      have hlt := (List.getElem?_eq_some_iff.1 hi).1
      have hx := List.getElem?_eq_getElem (l := d₂.x) (i := i) (by omega)
      have hy := List.getElem?_eq_getElem (l := d₂.y) (i := i) (by omega)
      have hr := List.getElem?_eq_getElem (l := d₂.radius) (i := i) (by omega)
      have q1 := (List.getElem?_zip_eq_some (z := (_, _))).2 ⟨hx, hy⟩
      have q2 := (List.getElem?_zip_eq_some (z := (_, _))).2 ⟨hr, hi⟩
      have := congrArg (fun l => l[i]?) h
      simp only [List.getElem?_zipWith, q1, q2, Option.some.injEq, Circle.mk.injEq] at this
      exact this.2.2.2
    · intro h
      apply List.ext_getElem?
      intro i
      simp only [List.getElem?_zipWith]
      cases hq : (d₂.radius.zip d₂.colour)[i]? with
      | none => cases (d₂.x.zip d₂.y)[i]? <;> rfl
      | some z =>
        obtain ⟨r, p⟩ := z
        have := (List.getElem?_zip_eq_some (z := (r, p))).1 hq
        cases (d₂.x.zip d₂.y)[i]? with
        | none => rfl
        | some a => simp only [h p (List.mem_of_getElem? this.2)]
  rw [hpic]
  constructor
  · intro h s hsm
    rw [mem_npUnique] at hsm
    obtain ⟨p, hpm, hps⟩ := List.mem_filterMap.1 hsm
    cases p with
    | rgb c => simp at hps
    | category t =>
      simp only [Option.some.injEq] at hps
      subst hps
      have := h _ hpm
      unfold Fig.ink at this
      rw [hm₁, hm₂] at this
      simpa using this
  · intro h p hpm
    unfold Fig.ink
    rw [hm₁, hm₂]
    cases p with
    | rgb c => rfl
    | category t =>
      have := h t ((mem_npUnique _ _).2 (List.mem_filterMap.2 ⟨_, hpm, rfl⟩))
      simp only [this]

/-- The category `b` alone is not at the beginning of `a`, `b`. -/
example : ¬ (["b"] : List String) <+: ["a", "b"] ∧ (["a"] : List String) <+: ["a", "b"] := by decide

end Verif.Figures
