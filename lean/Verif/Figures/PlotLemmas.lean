import Verif.Figures.PlotModel
import Verif.Figures.LegendLemmas
import Verif.Figures.Props
/-!
# Lemmas about figures and their sources
-/

namespace Verif.Figures

open Quaternion
open Verif.Motion (V3 Quat)
open Verif.Frame (View)
open Verif.Molecule (Mol)

variable {C : Type}

/-- The picture of a figure of which the source holds `d`. -/
theorem picture_some (missing : C) (sources : List (Data C)) (fig : Fig C) (d : Data C)
    (h : sources[fig.source]? = some d) : fig.picture missing sources =
      some (List.zipWith (fun (p : ℝ × ℝ) (r : ℝ × Paint C) =>
        ⟨p.1, p.2, r.1, fig.ink missing r.2⟩) (d.x.zip d.y) (d.radius.zip d.colour)) := by
  unfold Fig.picture
  rw [h]

/-- What a call of `plot_frame` that returns has done. -/
theorem plotFrame_ok {conv : Nat → Nat → Nat → C} {category10 : List C} {sources : List (Data C)}
    {frame : View} {orderFunction : Option (View → OrderArr)} {orderList : Option OrderArr}
    {source : Option Nat} {molecule : Mol} {categorical : Bool} {factors : Option (List String)}
    {colormap : Option (List C)} {after : List (Data C)} {fig : Fig C}
    (h : plotFrame conv category10 sources frame orderFunction orderList source molecule categorical
      factors colormap = (after, .ok fig)) (hs : ∀ i, source = some i → i < sources.length) :
    ∃ d, frame2data conv frame orderFunction orderList molecule categorical = .ok d ∧
      after[fig.source]? = some d ∧ (∀ i, source = some i → fig.source = i) ∧
      fig.mapper = (if categorical then
        some (factors.getD (npUnique (categoriesOf d.colour)), colormap.getD category10) else none) := by
  unfold plotFrame at h
  cases hd : frame2data conv frame orderFunction orderList molecule categorical with
  | error e =>
    rw [hd] at h
    simp at h
  | ok d =>
    rw [hd] at h
    cases source with
    | none =>
      simp only [Prod.mk.injEq, Except.ok.injEq] at h
      obtain ⟨rfl, rfl⟩ := h
      exact ⟨d, rfl, by simp [plotCircles], by simp, rfl⟩
    | some i =>
      simp only [Prod.mk.injEq, Except.ok.injEq] at h
      obtain ⟨rfl, rfl⟩ := h
      have := hs i rfl
      exact ⟨d, rfl, by simp [plotCircles, this], by simp [plotCircles], rfl⟩

/-- The column of colours for a frame of one disc and a list of categories. -/
theorem frame2data_disc (conv : Nat → Nat → Nat → C) (s : String) :
    ∃ d, frame2data conv ⟨[(1, 2, 0)], [1], [2], [0], [1], none, 0, [1, 1, 1], 2, 1⟩ none
      (some (.strs [s])) Molecule.disc true = .ok d ∧ d.x.length = 1 ∧ d.y.length = 1 ∧
      d.radius.length = 1 ∧ d.colour = [.category s] := by
  have hv : Holds (N := 1) ⟨[(1, 2, 0)], [1], [2], [0], [1], none, 0, [1, 1, 1], 2, 1⟩
      (fun _ => (1, 2, 0)) (fun _ => 1) := ⟨by simp, by simp, rfl⟩
  have hsh : Shape (K := 1) Molecule.disc (fun _ => 0) (fun _ => 1 / 2) := by
    refine ⟨?_, rfl, ?_⟩
    · simp [Molecule.disc, Molecule.initMolecule, Molecule.centre]
    · intro p
      refine ⟨"A", ?_, ?_⟩
      · have : p = 0 := Subsingleton.elim _ _
        subst this
        rfl
      · simp [Molecule.disc, Dict.get?]
  obtain ⟨d, hd, ha⟩ := frame2data_ok conv (K := 1) (N := 1) (by omega) hv (by simp) hsh none
    (some (.strs [s])) true (by simp) (fun _ => .category s) (by simp [colours, OrderArr.text])
  refine ⟨d, hd, by simpa using ha.lx, by simpa using ha.ly, by simpa using ha.lr, ?_⟩
  have hc := ha.colour 0 0
  have hl := ha.lc
  match hdc : d.colour with
  | [] => simp [hdc] at hl
  | [c] => simpa [hdc] using hc
  | _ :: _ :: _ => simp [hdc] at hl

end Verif.Figures
