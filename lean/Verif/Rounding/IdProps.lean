import Verif.Rounding.ReadProps
/-!
# Exactly which lammps files keep their ids: C115
-/

namespace Verif.Rounding

open Verif.Motion Verif.Lammps Verif.Text

/-- **C115, exactly.**  The ids of a frame whose atoms are numbered from 1 are listed if and only if there
are no more than 2^24 atoms. -/
theorem C115_ids_exactly (float : List Char → Option ℝ) (hfloat : ∀ w, float (w ++ ['\n']) = float w)
    (f : FrameText ℝ) (hv : f.Valid float)
    (hid : ∀ i j, f.headings[j]? = some "id".toList → (f.cell i j).2 = i + 1) :
    (∃ g, (parseLammps32 float f.write).1 = [g] ∧ ListsIds g f.numAtoms) ↔ f.numAtoms ≤ 2 ^ 24 := by
  refine ⟨?_, C115_ids_partial float hfloat f hv hid⟩
  rintro ⟨g, hg, hl⟩
  by_contra hN
  rw [not_le] at hN
  have hp := parseLammps32_text float hfloat [f] (by simpa using hv)
  simp only [List.flatMap_cons, List.flatMap_nil, List.append_nil, List.map_cons, List.map_nil] at hp
  have hg' : g = readFrame32 f := by
    rw [hp] at hg
    exact (List.singleton_inj.1 hg).symm
  subst hg'
  obtain ⟨j, hj⟩ := List.mem_iff_getElem?.1 hv.heading_id
  unfold ListsIds at hl
  rw [readFrame32_column hv hj] at hl
  have h1 := congrArg (fun c => c[2 ^ 24]?) (Option.some_inj.1 hl)
  have hr (n : ℕ) (h : n < f.numAtoms) (a : ℕ → Option ℝ) :
      ((List.range f.numAtoms).map a)[n]? = some (a n) := by simp [h]
  have h2 := (hr (2 ^ 24) hN _).symm.trans (h1.trans (hr (2 ^ 24) hN _))
  simp only [Option.some.injEq] at h2
  have e : (f.cell (2 ^ 24) j).2 = (2 : ℝ) ^ 24 + 1 := by
    rw [hid (2 ^ 24) j hj]; push_cast; ring
  rw [e, double_next] at h2
  push_cast at h2
  linarith

/-- Files of any number of atoms. -/
example (N : ℕ) : (manyText N).Valid Pipeline.intFloat ∧
    ∀ i j, (manyText N).headings[j]? = some "id".toList → ((manyText N).cell i j).2 = i + 1 :=
  ⟨manyText_valid N, fun i j hj => by
    obtain rfl := manyText_id hj
    simp [manyText]⟩

end Verif.Rounding
