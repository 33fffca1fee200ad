import Verif.Lammps.Props
import Verif.Frame.Lemmas
import Verif.Pipeline.Props
import Verif.Pipeline.LammpsSpec
/-!
# Lemmas for `process_file` on lammps trajectories
-/

namespace Verif.Pipeline

open Verif.Motion Verif.Dynamics Verif.Relax Verif.Gsd Verif.Process Verif.Cache Verif.Lammps

theorem value_keys (f : FrameText ℝ) : f.value.cols.map Prod.fst = f.headings := by
  simp only [FrameText.value, List.map_map]
  apply List.ext_getElem
  · simp
  · intro i h1 h2
    simp [List.getD_eq_getElem?_getD, h2]

theorem column_value (junk : ℝ) {float : List Char → Option ℝ} {f : FrameText ℝ} (hv : f.Valid float)
    {j : ℕ} {name : String} (hj : f.headings[j]? = some name.toList) :
    Frame.column junk f.value name = .ok ((List.range f.numAtoms).map (fun i => (f.cell i j).2)) := by
  have hlt : j < f.headings.length := by
    by_contra h
    rw [List.getElem?_eq_none (by omega)] at hj
    simp at hj
  have hget : Dict.get? f.value.cols name.toList =
      some ((List.range f.numAtoms).map (fun i => some (f.cell i j).2)) := by
    apply Dict.get?_of_mem f.value.cols (by rw [value_keys]; exact hv.heading_nodup)
      (name.toList, (List.range f.numAtoms).map (fun i => some (f.cell i j).2))
    simp only [FrameText.value, List.mem_map, List.mem_range]
    refine ⟨j, hlt, ?_⟩
    rw [List.getD_eq_getElem?_getD, hj]
    rfl
  simp only [Frame.column, hget, List.map_map]
  rfl

/-- What `process_file` sees of a frame written in a valid way. -/
def textFrame (N : ℕ) (f : FrameText ℝ) (jx jy jz : ℕ) : GFrame PData :=
  ⟨f.timestep, ⟨(textCell f).array, List.ofFn (fun m : Fin N => written f jx jy jz m),
    some (List.ofFn (fun _ : Fin N => (1 : Quat)))⟩⟩

theorem lammpsFrame_text (junk : ℝ) {float : List Char → Option ℝ} {f : FrameText ℝ}
    (hv : f.Valid float) {jx jy jz : ℕ} (hl : Located f jx jy jz) {N : ℕ} (hN : f.numAtoms = N) :
    ∃ v, Frame.lammpsFrame junk f.value = .ok v ∧
      (⟨v.timestep, ⟨v.box, v.position, some v.orientation⟩⟩ : GFrame PData) = textFrame N f jx jy jz := by
  refine ⟨_, (Frame.lammpsFrame_ok junk f.value _).2 ⟨_, _, _, column_value junk hv hl.x,
    column_value junk hv hl.y, column_value junk hv hl.z, by simp, by simp, rfl⟩, ?_⟩
  subst hN
  simp only [Frame.lammpsView, textFrame, GFrame.mk.injEq, PData.mk.injEq, Option.some.injEq]
  refine ⟨rfl, ?_, ?_, ?_⟩
  · simp [FrameText.value, Frame.lammpsBox, Frame.boxLoop, textCell, Cell.array, List.replicate]
  · apply List.ext_getElem
    · simp
    · intro i h1 h2
      simp [written]
  · simp [List.ofFn_const]

theorem lammpsPairs_text (junk : ℝ) (e : Option PyErr) {float : List Char → Option ℝ} {N : ℕ}
    (f : ℕ → FrameText ℝ) (jx jy jz : ℕ → ℕ) : ∀ l : List ℕ, (∀ i ∈ l, (f i).Valid float ∧
      (f i).numAtoms = N ∧ Located (f i) (jx i) (jy i) (jz i)) →
    lammpsPairs junk e (l.map (fun i => ([0], (f i).value))) =
      (l.map (fun i => ([0], textFrame N (f i) (jx i) (jy i) (jz i))), e)
  | [], _ => rfl
  | i :: l, h => by
    obtain ⟨hv, hN, hl⟩ := h i (by simp)
    obtain ⟨v, h1, h2⟩ := lammpsFrame_text junk hv hl hN
    have ih := lammpsPairs_text junk e f jx jy jz l (fun j hj => h j (by simp [hj]))
    simp only [List.map_cons, lammpsPairs, h1, ih, h2]

theorem framesOf_zero {ν : Type} (a : Args) (vars : Except PyErr ν) (g : ℕ → GFrame PData) :
    ∀ l : List ℕ, (∀ i ∈ l, (g i).data.position ≠ []) →
    framesOf 0 (visitsOf (env a vars) (l.map (fun i => (([0] : List ℕ), g i)))) = l.map g
  | [], _ => rfl
  | i :: l, h => by
    have ih := framesOf_zero a vars g l (fun j hj => h j (by simp [hj]))
    have h0 : (env a vars).numPos (g i) ≠ 0 := fun hz => h i (by simp) (List.length_eq_zero_iff.1 hz)
    simp only [visitsOf, List.map_cons, List.flatMap_cons, if_neg h0] at ih ⊢
    simp only [framesOf, List.map_nil, List.cons_append, List.nil_append, List.filterMap_cons, if_true,
      List.cons.injEq, true_and] at ih ⊢
    exact ih

/-- The frames `0`, …, `n` are kept, a frame beyond the maximum ends the reading, and the end of the
parser is met only when there is no such frame. -/
theorem readLammps_text (float : List Char → Option ℝ) (hfloat : ∀ w, float (w ++ ['\n']) = float w)
    {n : ℕ} {f : ℕ → FrameText ℝ} (hv : ∀ i ≤ n, (f i).Valid float) (stepsMax : Option Int)
    (hin : ∀ i ≤ n, ∀ m, stepsMax = some m → (f i).timestep ≤ m) (tail : List Char)
    (hout : ∀ g ∈ (parseLammps float tail).1.head?, ∃ m, stepsMax = some m ∧ m < g.timestep) :
    readLammps float (runText f n ++ tail) stepsMax =
      ((List.range (n + 1)).map (fun i => ([0], (f i).value)),
        if (parseLammps float tail).1 = [] then (parseLammps float tail).2 else none) := by
  have hp := parseLammps_append float hfloat tail ((List.range (n + 1)).map f) (by
    intro g hg
    obtain ⟨i, hi, rfl⟩ := List.mem_map.1 hg
    exact hv i (by have := List.mem_range.1 hi; omega))
  have hloop : ∀ (l : List ℕ) (e : Option PyErr) (rest : List (LFrame ℝ)), (∀ i ∈ l, i ≤ n) →
      (∀ g ∈ rest.head?, ∃ m, stepsMax = some m ∧ m < g.timestep) →
      readLoop stepsMax e (l.map (fun i => (f i).value) ++ rest) =
        (l.map (fun i => ([0], (f i).value)), if rest = [] then e else none) := by
    intro l e rest hl hr
    induction l with
    | nil =>
      cases rest with
      | nil => simp [readLoop]
      | cons g rest =>
        obtain ⟨m, hm, hg⟩ := hr g (by simp)
        simp [readLoop, hm, hg]
    | cons i l ih =>
      have hno : stepsMax.any (fun m => decide ((f i).value.timestep > m)) = false := by
        cases hs : stepsMax with
        | none => rfl
        | some m =>
          have := hin i (hl i (by simp)) m hs
          simpa [FrameText.value] using this
      simp only [List.map_cons, List.cons_append, readLoop, hno, ih (fun j hj => hl j (by simp [hj]))]
      rfl
  unfold readLammps runText
  rw [hp, List.map_map]
  exact hloop _ _ _ (fun i hi => by have := List.mem_range.1 hi; omega) hout

end Verif.Pipeline
