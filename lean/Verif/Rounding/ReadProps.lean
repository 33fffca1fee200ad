import Verif.Rounding.ReadExample
/-!
# C115: the numbers of a lammps file in single precision
-/

namespace Verif.Rounding

open Verif.Motion Verif.Lammps Verif.Text

/-- **C115**, what holds: every frame of the file is read, and every number of its columns up to a
relative error of 2^-24 and 2^-52 (and the smallest number of float32). -/
theorem C115_columns_partial (float : List Char → Option ℝ) (hfloat : ∀ w, float (w ++ ['\n']) = float w)
    (fs : List (FrameText ℝ)) (hv : ∀ f ∈ fs, f.Valid float) :
    (parseLammps32 float (fs.flatMap FrameText.write)).2 = none ∧
    (parseLammps32 float (fs.flatMap FrameText.write)).1.length = fs.length ∧
    ∀ (n : ℕ) (f : FrameText ℝ), fs[n]? = some f →
      ∃ g : LFrame ℝ, (parseLammps32 float (fs.flatMap FrameText.write)).1[n]? = some g ∧ g.timestep = f.timestep ∧
        ∀ (j : ℕ) (h : List Char), f.headings[j]? = some h → ∃ c : List (Option ℝ), Dict.get? g.cols h = some c ∧ c.length = f.numAtoms ∧
          ∀ i < f.numAtoms, ∃ y, c[i]? = some (some y) ∧ float32.Number y ∧
            |y - (f.cell i j).2| ≤
              (2 ^ (-24 : ℤ) + 2 ^ (-52 : ℤ)) * |(f.cell i j).2| + 2 ^ (-149 : ℤ) := by
  rw [parseLammps32_text float hfloat fs hv]
  refine ⟨rfl, by simp, fun n f hf => ⟨readFrame32 f, ?_, rfl, fun j h hj => ?_⟩⟩
  · simp only [List.getElem?_map, hf, Option.map_some]; rfl
  · refine ⟨_, readFrame32_column (hv f (List.mem_of_getElem? hf)) hj, by simp, fun i hi => ?_⟩
    exact ⟨float32.fl (float64.fl (f.cell i j).2), by simp [hi], fl_number float32 _, double_error _⟩

/-- Two frames of ten atoms. -/
example : (∀ w, Pipeline.intFloat (w ++ ['\n']) = Pipeline.intFloat w) ∧
    ∀ f ∈ [Pipeline.lText 3, Pipeline.lText 4], f.Valid Pipeline.intFloat :=
  ⟨Pipeline.intFloat_nl, by
    intro f hf
    simp only [List.mem_cons, List.not_mem_nil, or_false] at hf
    rcases hf with rfl | rfl
    · exact Pipeline.lText_valid 3
    · exact Pipeline.lText_valid 4⟩

/-- **C115**, what holds: the cell, up to errors relative to its lengths and its bounds. -/
theorem C115_box_partial (float : List Char → Option ℝ) (hfloat : ∀ w, float (w ++ ['\n']) = float w)
    (f : FrameText ℝ) (hv : f.Valid float) :
    ∃ g Lx Ly Lz, (parseLammps32 float f.write).1 = [g] ∧ lammpsBox32 g = [Lx, Ly, Lz, 0, 0, 0] ∧
      ∀ a : Fin 3, |[Lx, Ly, Lz][a] - ((f.bound a).2.1.2 - (f.bound a).1.2)| ≤
        (2 ^ (-24 : ℤ) + 2 ^ (-52 : ℤ)) * |(f.bound a).2.1.2 - (f.bound a).1.2| +
          2 ^ (-52 : ℤ) * (|(f.bound a).2.1.2| + |(f.bound a).1.2|) + 2 ^ (-148 : ℤ) := by
  have h := parseLammps32_text float hfloat [f] (by simpa using hv)
  simp only [List.flatMap_cons, List.flatMap_nil, List.append_nil, List.map_cons, List.map_nil] at h
  refine ⟨readFrame32 f, float32.fl (float64.fl (float64.fl (f.bound 0).2.1.2 - float64.fl (f.bound 0).1.2)),
    float32.fl (float64.fl (float64.fl (f.bound 1).2.1.2 - float64.fl (f.bound 1).1.2)),
    float32.fl (float64.fl (float64.fl (f.bound 2).2.1.2 - float64.fl (f.bound 2).1.2)), by rw [h]; rfl, ?_, ?_⟩
  rotate_left
  · intro a
    fin_cases a
    · exact difference_error (f.bound 0).1.2 (f.bound 0).2.1.2
    · exact difference_error (f.bound 1).1.2 (f.bound 1).2.1.2
    · exact difference_error (f.bound 2).1.2 (f.bound 2).2.1.2
  · simp [lammpsBox32, readFrame32, FrameText.value, Frame.lammpsBox, Frame.boxLoop, roundText,
      List.replicate, fl_zero]

example : (Pipeline.lText 3).Valid Pipeline.intFloat := Pipeline.lText_valid 3

/-- **C115**, what holds: the ids of a frame of up to 2^24 atoms are listed. -/
theorem C115_ids_partial (float : List Char → Option ℝ) (hfloat : ∀ w, float (w ++ ['\n']) = float w)
    (f : FrameText ℝ) (hv : f.Valid float)
    (hid : ∀ i j, f.headings[j]? = some "id".toList → (f.cell i j).2 = i + 1)
    (hN : f.numAtoms ≤ 2 ^ 24) :
    ∃ g, (parseLammps32 float f.write).1 = [g] ∧ ListsIds g f.numAtoms := by
  have h := parseLammps32_text float hfloat [f] (by simpa using hv)
  simp only [List.flatMap_cons, List.flatMap_nil, List.append_nil, List.map_cons, List.map_nil] at h
  refine ⟨readFrame32 f, by rw [h]; rfl, ?_⟩
  obtain ⟨j, hj⟩ := List.mem_iff_getElem?.1 hv.heading_id
  unfold ListsIds
  rw [readFrame32_column hv hj]
  congr 1
  apply List.map_congr_left
  intro i hi
  have hi := List.mem_range.1 hi
  rw [hid i j hj]
  have := double_whole ((i : ℤ) + 1) (by rw [abs_of_nonneg (by omega)]; omega)
  push_cast at this
  rw [this]

example : ∃ f : FrameText ℝ, f.Valid Pipeline.intFloat ∧ (∀ w, Pipeline.intFloat (w ++ ['\n']) = Pipeline.intFloat w) ∧
    f.numAtoms = 10 ∧ (∀ i j, f.headings[j]? = some "id".toList → (f.cell i j).2 = i + 1) :=
  ⟨Pipeline.lText 3, Pipeline.lText_valid 3, Pipeline.intFloat_nl, rfl, by
    intro i j h
    have h' : Pipeline.lHeads[j]? = some "id".toList := h
    have hj : j = 0 := by
      match j, h' with
      | 0, _ => rfl
      | 1, h => exact absurd h (by decide)
      | 2, h => exact absurd h (by decide)
      | 3, h => exact absurd h (by decide)
      | j + 4, h => exact absurd h (by simp [Pipeline.lHeads])
    subst hj
    simp [Pipeline.lText]⟩

/-- The full statement: the ids of every frame are listed. -/
def KeepsIds : Prop :=
  ∀ (float : List Char → Option ℝ), (∀ w, float (w ++ ['\n']) = float w) → ∀ f : FrameText ℝ,
    f.Valid float → (∀ i j, f.headings[j]? = some "id".toList → (f.cell i j).2 = i + 1) →
    ∃ g, (parseLammps32 float f.write).1 = [g] ∧ ListsIds g f.numAtoms

/-- **C115** is false: the ids go through float32, and atom 16777217 is listed as 16777216. -/
theorem C115_ids_refuted : ¬ KeepsIds := by
  intro h
  have hid : ∀ i j, (manyText (2 ^ 24 + 1)).headings[j]? = some "id".toList →
      ((manyText (2 ^ 24 + 1)).cell i j).2 = i + 1 := by
    intro i j hj
    obtain rfl := manyText_id hj
    simp [manyText]
  obtain ⟨g, hg, hl⟩ := h Pipeline.intFloat Pipeline.intFloat_nl (manyText (2 ^ 24 + 1))
    (manyText_valid _) hid
  have hp := parseLammps32_text Pipeline.intFloat Pipeline.intFloat_nl [manyText (2 ^ 24 + 1)]
    (by simpa using manyText_valid _)
  simp only [List.flatMap_cons, List.flatMap_nil, List.append_nil, List.map_cons, List.map_nil] at hp
  have hg' : g = readFrame32 (manyText (2 ^ 24 + 1)) := by
    rw [hp] at hg
    exact (List.singleton_inj.1 hg).symm
  subst hg'
  unfold ListsIds at hl
  rw [readFrame32_column (j := 0) (manyText_valid (2 ^ 24 + 1)) rfl] at hl
  have h1 := congrArg (fun c => c[2 ^ 24]?) (Option.some_inj.1 hl)
  have hr (n : ℕ) (a : ℕ → Option ℝ) : ((List.range (n + 1)).map a)[n]? = some (a n) := by simp
  have h2 := (hr (2 ^ 24) _).symm.trans (h1.trans (hr (2 ^ 24) _))
  simp only [Option.some.injEq] at h2
  have e : ((manyText (2 ^ 24 + 1)).cell (2 ^ 24) 0).2 = (2 : ℝ) ^ 24 + 1 := by
    have := hid (2 ^ 24) 0 rfl
    rw [this]; push_cast; ring
  rw [e, double_next] at h2
  push_cast at h2
  linarith

end Verif.Rounding
