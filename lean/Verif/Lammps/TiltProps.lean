import Verif.Lammps.Props
import Verif.Pipeline.LammpsExample
/-!
# C77: exactly when the lengths of a triclinic cell are right
-/

namespace Verif.Lammps

open Verif.Text

/-- A triclinic cell as lammps describes it: corners and tilts. -/
structure TiltedCell where
  lo : Fin 3 → ℝ
  hi : Fin 3 → ℝ
  xy : ℝ
  xz : ℝ
  yz : ℝ

/-- The bounds that lammps writes on the box lines, those of the bounding box
(https://docs.lammps.org/Howto_triclinic.html). -/
noncomputable def TiltedCell.bounds (c : TiltedCell) (a : Fin 3) : ℝ × ℝ :=
  match a with
  | 0 => (c.lo 0 + min (min 0 c.xy) (min c.xz (c.xy + c.xz)), c.hi 0 + max (max 0 c.xy) (max c.xz (c.xy + c.xz)))
  | 1 => (c.lo 1 + min 0 c.yz, c.hi 1 + max 0 c.yz)
  | 2 => (c.lo 2, c.hi 2)

/-- **C77, exactly.**  Of the frame of a triclinic cell the lengths read are longer than the true ones by the
extent of the tilts; they are the true ones exactly when there is no tilt at all. -/
theorem C77_exactly (float : List Char → Option ℝ) (hfloat : ∀ w, float (w ++ ['\n']) = float w)
    (f : FrameText ℝ) (hv : f.Valid float) (c : TiltedCell)
    (hb : ∀ a : Fin 3, ((f.bound a).1.2, (f.bound a).2.1.2) = c.bounds a) :
    ∃ lf x y z, parseLammps float f.write = ([lf], none) ∧ lf.box = [x, y, z] ∧
      x = (c.hi 0 - c.lo 0) + (max (max 0 c.xy) (max c.xz (c.xy + c.xz)) - min (min 0 c.xy) (min c.xz (c.xy + c.xz))) ∧
      y = (c.hi 1 - c.lo 1) + |c.yz| ∧ z = c.hi 2 - c.lo 2 ∧
      ((x = c.hi 0 - c.lo 0 ∧ y = c.hi 1 - c.lo 1 ∧ z = c.hi 2 - c.lo 2) ↔ c.xy = 0 ∧ c.xz = 0 ∧ c.yz = 0) := by
  have h2 := C18_lammps_round_trip float hfloat [f] (by simpa using hv)
  simp only [List.flatMap_cons, List.flatMap_nil, List.append_nil] at h2
  have b0 := hb 0
  have b1 := hb 1
  have b2 := hb 2
  simp only [TiltedCell.bounds, Prod.mk.injEq] at b0 b1 b2
  have hyz : max 0 c.yz - min 0 c.yz = |c.yz| := by
    rcases le_total 0 c.yz with h | h
    · rw [max_eq_right h, min_eq_left h, abs_of_nonneg h, sub_zero]
    · rw [max_eq_left h, min_eq_right h, abs_of_nonpos h, zero_sub]
  refine ⟨f.value, (f.bound 0).2.1.2 - (f.bound 0).1.2, (f.bound 1).2.1.2 - (f.bound 1).1.2,
    (f.bound 2).2.1.2 - (f.bound 2).1.2, h2, rfl, ?_, ?_, ?_, ?_⟩
  · have e1 := b0.1
    have e2 := b0.2
    rw [e1, e2]; ring
  · have e1 := b1.1
    have e2 := b1.2
    rw [e1, e2, ← hyz]; ring
  · have e1 := b2.1
    have e2 := b2.2
    rw [e1, e2]
  · have e1 := b0.1
    have e2 := b0.2
    have e3 := b1.1
    have e4 := b1.2
    have e5 := b2.1
    have e6 := b2.2
    rw [e1, e2, e3, e4, e5, e6]
    constructor
    · rintro ⟨h1, h3, -⟩
      have hy : |c.yz| = 0 := by rw [← hyz]; linarith
      have g1 : max (max 0 c.xy) (max c.xz (c.xy + c.xz)) = min (min 0 c.xy) (min c.xz (c.xy + c.xz)) := by linarith
      have m1 : (0 : ℝ) ≤ max (max 0 c.xy) (max c.xz (c.xy + c.xz)) := (le_max_left _ _).trans (le_max_left _ _)
      have m2 : c.xy ≤ max (max 0 c.xy) (max c.xz (c.xy + c.xz)) := (le_max_right _ _).trans (le_max_left _ _)
      have m3 : c.xz ≤ max (max 0 c.xy) (max c.xz (c.xy + c.xz)) := (le_max_left _ _).trans (le_max_right _ _)
      have n1 : min (min 0 c.xy) (min c.xz (c.xy + c.xz)) ≤ 0 := (min_le_left _ _).trans (min_le_left _ _)
      have n2 : min (min 0 c.xy) (min c.xz (c.xy + c.xz)) ≤ c.xy := (min_le_left _ _).trans (min_le_right _ _)
      have n3 : min (min 0 c.xy) (min c.xz (c.xy + c.xz)) ≤ c.xz := (min_le_right _ _).trans (min_le_left _ _)
      exact ⟨by linarith, by linarith, abs_eq_zero.1 hy⟩
    · rintro ⟨h1, h3, h4⟩
      rw [h1, h3, h4]
      simp

/-- A cell of 10 by 10 by 4 with `xy = 2`. -/
def tiltedEx : TiltedCell := ⟨fun _ => 0, ![10, 10, 4], 2, 0, 0⟩

/-- Its frame: the bounds are 0 and 12 along `x`. -/
def tiltedText : FrameText ℝ :=
  { Pipeline.lText 0 with
    boundsTail := " xy xz yz pp pp pp".toList
    bound := fun a => ((showNat 0, (0 : ℕ)),
      (showNat (if a = 0 then 12 else if a = 1 then 10 else 4), ((if a = 0 then 12 else if a = 1 then 10 else 4 : ℕ) : ℕ)),
      " 2".toList) }

/-- The frame is valid and has the bounds of the cell, so its length along `x` is read as 12. -/
example : ∃ lf x y z, parseLammps Pipeline.intFloat tiltedText.write = ([lf], none) ∧ lf.box = [x, y, z] ∧
    x = 12 ∧ tiltedEx.hi 0 - tiltedEx.lo 0 = 10 := by
  have hv : tiltedText.Valid Pipeline.intFloat :=
    { Pipeline.lText_valid 0 with
      boundsTail := (by decide : '\n' ∉ " xy xz yz pp pp pp".toList)
      bound_word := fun _ => ⟨showNat_word _, showNat_word _⟩
      bound_float := fun _ => ⟨Pipeline.intFloat_showNat 0, Pipeline.intFloat_showNat _⟩
      bound_tail := fun _ => ⟨(by decide : '\n' ∉ " 2".toList), fun c hc => by
        have : c = ' ' := (Option.some_inj.1 hc).symm
        subst this; decide⟩ }
  obtain ⟨lf, x, y, z, h1, h2, h3, -⟩ := C77_exactly Pipeline.intFloat Pipeline.intFloat_nl tiltedText hv tiltedEx (by
    intro a
    fin_cases a <;> simp [tiltedText, TiltedCell.bounds, tiltedEx]
    norm_num)
  refine ⟨lf, x, y, z, h1, h2, ?_, ?_⟩
  · rw [h3]
    simp [tiltedEx]
    norm_num
  · simp [tiltedEx]

end Verif.Lammps
