import Verif.Figures.PlotLemmas
/-!
# C142: figures and their sources
-/

namespace Verif.Figures

open Quaternion
open Verif.Motion (V3 Quat)
open Verif.Frame (View)
open Verif.Molecule (Mol)

variable {C : Type}

/-- **C142.** The figure that `plot_frame` returns shows the frame: a circle for each particle of each
molecule, in its place and with 0.98 of its radius. -/
theorem C142_shows (conv : Nat → Nat → Nat → C) (category10 : List C) (missing : C) {K N : ℕ}
    (hK : 0 < K) (v : View) (pos : Fin N → V3) (q : Fin N → Quat) (hv : Holds v pos q)
    (mol : Mol) (b : Fin K → V3) (r : Fin K → ℝ) (hs : Shape mol b r)
    (orderFunction : Option (View → OrderArr)) (orderList : Option OrderArr)
    (hfit : Fits N v orderFunction orderList) (source : Option Nat) (categorical : Bool)
    (factors : Option (List String)) (colormap : Option (List C)) (sources after : List (Data C))
    (hsrc : ∀ i, source = some i → i < sources.length) (fig : Fig C)
    (h : plotFrame conv category10 sources v orderFunction orderList source mol categorical factors
      colormap = (after, .ok fig)) :
    ∃ circles, fig.picture missing after = some circles ∧ circles.length = N * K ∧
      ∀ (p : Fin K) (m : Fin N), ∃ c, circles[p.val * N + m.val]? = some c ∧
        c.x = (pos m).1 + (Dynamics.turned (q m) (b p)).1 ∧
        c.y = (pos m).2.1 + (Dynamics.turned (q m) (b p)).2.1 ∧ c.radius = r p * (98 / 100) := by
  obtain ⟨d, hd, ha, -, -⟩ := plotFrame_ok h hsrc
  obtain ⟨ang, col, -, hal⟩ := C67_rows_partial conv hK v pos q hv mol b r hs orderFunction orderList
    categorical hfit d hd
  refine ⟨_, picture_some missing after fig d ha, ?_, ?_⟩
  · simp [hal.lx, hal.ly, hal.lr, hal.lc]
  · intro p m
    refine ⟨⟨_, _, _, fig.ink missing (col m)⟩, ?_, rfl, rfl, rfl⟩
    have e1 := (List.getElem?_zip_eq_some (z := (_, _))).2 ⟨hal.x p m, hal.y p m⟩
    have e2 := (List.getElem?_zip_eq_some (z := (_, _))).2 ⟨hal.radius p m, hal.colour p m⟩
    rw [List.getElem?_zipWith, e1, e2]

/-- **C142.** Figures drawn from other sources are left alone, whether `plot_frame` returns or not;
without a source given, all figures are. -/
theorem C142_others (conv : Nat → Nat → Nat → C) (category10 : List C) (missing : C) (v : View)
    (mol : Mol) (orderFunction : Option (View → OrderArr)) (orderList : Option OrderArr)
    (source : Option Nat) (categorical : Bool) (factors : Option (List String))
    (colormap : Option (List C)) (sources : List (Data C)) (old : Fig C)
    (ho : old.source < sources.length) (hne : source ≠ some old.source) :
    old.picture missing (plotFrame conv category10 sources v orderFunction orderList source mol
      categorical factors colormap).1 = old.picture missing sources := by
  unfold plotFrame
  cases frame2data conv v orderFunction orderList mol categorical with
  | error e => rfl
  | ok d =>
    cases source with
    | none =>
      simp only [Fig.picture]
      rw [List.getElem?_append_left ho]
    | some i =>
      simp only [Fig.picture]
      rw [List.getElem?_set_ne]
      intro e
      exact hne (by rw [e])

/-- **C142.** A call of `plot_frame` that raises leaves all sources, and so all figures, as they were. -/
theorem C142_failed (conv : Nat → Nat → Nat → C) (category10 : List C) (v : View)
    (mol : Mol) (orderFunction : Option (View → OrderArr)) (orderList : Option OrderArr)
    (source : Option Nat) (categorical : Bool) (factors : Option (List String))
    (colormap : Option (List C)) (sources after : List (Data C)) (e : PyErr)
    (h : plotFrame conv category10 sources v orderFunction orderList source mol categorical factors
      colormap = (after, .error e)) : after = sources := by
  unfold plotFrame at h
  cases hd : frame2data conv v orderFunction orderList mol categorical with
  | error e' =>
    rw [hd] at h
    simp only [Prod.mk.injEq] at h
    exact h.1.symm
  | ok d =>
    rw [hd] at h
    cases source <;> simp at h

/-- Both an order function and a list of orders are given. -/
example (conv : Nat → Nat → Nat → C) (category10 : List C) (old : Data C) : ∃ after e,
    plotFrame conv category10 [old] ⟨[(1, 2, 0)], [1], [2], [0], [1], none, 0, [1, 1, 1], 2, 1⟩
      (some fun _ => .strs ["a"]) (some (.strs ["b"])) (some 0) Molecule.disc true none none =
      (after, .error e) :=
  ⟨[old], .valueError, by simp [plotFrame, frame2data]⟩

/-- **C142 (partial).** The full statement: when a frame is drawn into the source of an older figure,
with the same options, the older figure shows what the new one shows.  Proved when the colours are not
categories, or the factors are given: in between there may have been any changes to the sources.  For
the rest see `C142_refuted`. -/
theorem C142_again_partial (conv : Nat → Nat → Nat → C) (category10 : List C) (missing : C)
    (categorical : Bool) (factors : Option (List String)) (colormap : Option (List C))
    (hf : categorical = true → factors.isSome = true)
    (v₁ v₂ : View) (mol₁ mol₂ : Mol) (orderFunction₁ orderFunction₂ : Option (View → OrderArr))
    (orderList₁ orderList₂ : Option OrderArr) (source : Option Nat)
    (sources₀ sources₁ sources₂ sources₃ : List (Data C)) (old new : Fig C)
    (hs : ∀ i, source = some i → i < sources₀.length)
    (h₁ : plotFrame conv category10 sources₀ v₁ orderFunction₁ orderList₁ source mol₁ categorical
      factors colormap = (sources₁, .ok old))
    (hl : old.source < sources₂.length)
    (h₂ : plotFrame conv category10 sources₂ v₂ orderFunction₂ orderList₂ (some old.source) mol₂
      categorical factors colormap = (sources₃, .ok new)) :
    old.picture missing sources₃ = new.picture missing sources₃ := by
  obtain ⟨d₁, -, -, -, hm₁⟩ := plotFrame_ok h₁ hs
  obtain ⟨d₂, -, -, hi, hm₂⟩ := plotFrame_ok h₂ (by rintro i ⟨⟩; exact hl)
  have hmap : old.mapper = new.mapper := by
    rw [hm₁, hm₂]
    cases categorical with
    | false => rfl
    | true =>
      obtain ⟨l, hl⟩ := Option.isSome_iff_exists.1 (hf rfl)
      simp [hl]
  have hsrc := hi old.source rfl
  have : old = new := by
    cases old
    cases new
    simp_all
  rw [this]

/-- The hypotheses of the theorems above can be met: a disc drawn twice, into the same source. -/
example (conv : Nat → Nat → Nat → C) (category10 : List C) : ∃ sources₁ sources₂ old new,
    plotFrame conv category10 [] ⟨[(1, 2, 0)], [1], [2], [0], [1], none, 0, [1, 1, 1], 2, 1⟩ none
      (some (.strs ["a"])) none Molecule.disc true (some ["a", "b"]) none = (sources₁, .ok old) ∧
    old.source < sources₁.length ∧
    plotFrame conv category10 sources₁ ⟨[(1, 2, 0)], [1], [2], [0], [1], none, 0, [1, 1, 1], 2, 1⟩ none
      (some (.strs ["b"])) (some old.source) Molecule.disc true (some ["a", "b"]) none =
      (sources₂, .ok new) := by
  obtain ⟨d, hd, -⟩ := frame2data_disc conv "a"
  obtain ⟨d', hd', -⟩ := frame2data_disc conv "b"
  refine ⟨[d], [d'], plotCircles d 0 true (some ["a", "b"]) category10,
    plotCircles d' 0 true (some ["a", "b"]) category10, ?_, by simp [plotCircles], ?_⟩
  · simp [plotFrame, hd]
  · simp [plotFrame, hd', plotCircles]

/-- **C142 is false** for categories without factors: a disc of category `a` is drawn, then one of
category `b` into the same source; the new figure shows it in the first colour of the palette, the
older one in the colour for missing values. -/
theorem C142_refuted (conv : Nat → Nat → Nat → C) (c₀ : C) (rest : List C) (missing : C)
    (hne : c₀ ≠ missing) : ∃ sources₁ sources₂ old new,
    plotFrame conv (c₀ :: rest) [] ⟨[(1, 2, 0)], [1], [2], [0], [1], none, 0, [1, 1, 1], 2, 1⟩ none
      (some (.strs ["a"])) none Molecule.disc true none none = (sources₁, .ok old) ∧
    plotFrame conv (c₀ :: rest) sources₁ ⟨[(1, 2, 0)], [1], [2], [0], [1], none, 0, [1, 1, 1], 2, 1⟩
      none (some (.strs ["b"])) (some old.source) Molecule.disc true none none =
      (sources₂, .ok new) ∧
    (∃ c, new.picture missing sources₂ = some [c] ∧ c.ink = .mapped c₀) ∧
    (∃ c, old.picture missing sources₂ = some [c] ∧ c.ink = .mapped missing) ∧
    old.picture missing sources₂ ≠ new.picture missing sources₂ := by
  obtain ⟨d, hd, -, -, -, hc⟩ := frame2data_disc conv "a"
  obtain ⟨d', hd', hx, hy, hr, hc'⟩ := frame2data_disc conv "b"
  have u : ∀ s : String, npUnique [s] = [s] := by
    intro s
    have : ([s] : List String).dedup = [s] := List.dedup_eq_self.2 (List.nodup_singleton s)
    rw [npUnique, this]
    exact List.mergeSort_of_pairwise (List.pairwise_singleton _ _)
  match hxd : d'.x, hyd : d'.y, hrd : d'.radius with
  | [x], [y], [r] =>
    have hn : (plotCircles d' 0 true none (c₀ :: rest)).picture missing [d'] =
        some [⟨x, y, r, .mapped c₀⟩] := by
      simp [Fig.picture, plotCircles, hxd, hyd, hrd, hc', Fig.ink, categoriesOf, u, factorColour]
    have ho : (plotCircles d 0 true none (c₀ :: rest)).picture missing [d'] =
        some [⟨x, y, r, .mapped missing⟩] := by
      simp [Fig.picture, plotCircles, hxd, hyd, hrd, hc, hc', Fig.ink, categoriesOf, u, factorColour]
    refine ⟨[d], [d'], plotCircles d 0 true none (c₀ :: rest),
      plotCircles d' 0 true none (c₀ :: rest), ?_, ?_, ⟨_, hn, rfl⟩, ⟨_, ho, rfl⟩, ?_⟩
    · simp [plotFrame, hd]
    · simp [plotFrame, hd', plotCircles]
    · rw [hn, ho]
      simpa using fun e => hne e.symm
  | [], _, _ => simp [hxd] at hx
  | _ :: _ :: _, _, _ => simp [hxd] at hx
  | _, [], _ => simp [hyd] at hy
  | _, _ :: _ :: _, _ => simp [hyd] at hy
  | _, _, [] => simp [hrd] at hr
  | _, _, _ :: _ :: _ => simp [hrd] at hr

end Verif.Figures
