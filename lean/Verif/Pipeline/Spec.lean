import Mathlib.Order.Bounds.Basic
import Verif.Dynamics.Spec
import Verif.Pipeline.Model
/-!
# Vocabulary for the properties of the whole of `process_file`
-/

namespace Verif.Pipeline

open Verif.Motion Verif.Dynamics Verif.Gsd

/-- Frame `i` of a trajectory of `N` molecules with times `t`, boxes `box`, stored positions `s` and
stored orientations `o`. -/
def gf {N : ℕ} (t : ℕ → ℤ) (box : ℕ → List ℝ) (s : ℕ → Fin N → V3) (o : ℕ → Option (Fin N → Quat))
    (i : ℕ) : GFrame PData :=
  ⟨t i, ⟨box i, List.ofFn (s i), (o i).map List.ofFn⟩⟩

/-- The frames `0`, …, `n` of the trajectory. -/
def gframes {N : ℕ} (t : ℕ → ℤ) (box : ℕ → List ℝ) (s : ℕ → Fin N → V3)
    (o : ℕ → Option (Fin N → Quat)) (n : ℕ) : List (GFrame PData) :=
  (List.range (n + 1)).map (gf t box s o)

/-- The value of molecule `m`, column `name`, in rows of molecular relaxations numbered by
molecule. -/
def molCell (rows : List (ℕ × Dict String ℤ)) (m : ℕ) (name : String) : Option ℤ :=
  (rows.find? (fun r => decide (r.1 = m))).bind (fun r => Dict.get? r.2 name)

/-- The row gives the time `dt`, and the averages for molecules which have moved by `d` and turned
by the angles `φ` since the start. -/
structure TrueRow {N : ℕ} (row : Dict Quantity Val) (dt : ℤ) (d : Fin N → V3) (φ : Fin N → ℝ) :
    Prop where
  time : Dict.get? row .time = some (.int dt)
  mean_displacement : Reports row .mean_displacement (avg (fun m => len (d m)))
  msd : Reports row .msd (avg (fun m => len2 (d m)))
  mfd : Reports row .mfd (avg (fun m => len2 (d m) ^ 2))
  mean_rotation : Reports row .mean_rotation (avg (fun m => |φ m|))
  msr : Reports row .msr (avg (fun m => φ m ^ 2))
  rot1 : Reports row .rot1 (avg (fun m => Real.cos (φ m)))
  rot2 : Reports row .rot2 (avg (fun m => Real.cos (2 * φ m)))

/-- The frames `0`, …, `n` of a trajectory in cells that change: the stored positions are images of
the true ones in the cell of their own frame, and from frame to frame a molecule moves less than half of
both cells and turns less than half a turn. -/
structure FollowsCells {N : ℕ} (c : ℕ → Cell) (n : ℕ) (u s : ℕ → Fin N → V3) (θ σ : ℕ → Fin N → ℝ)
    (o : ℕ → Option (Fin N → Quat)) : Prop where
  cell : ∀ i ≤ n, (c i).Proper
  dim : ∀ i ≤ n, (c i).is2D = (c 0).is2D
  image : ∀ i ≤ n, ∀ m, (c i).Lattice ((c i).flat (s i m - u i m))
  stepT : ∀ i < n, ∀ m, (c i).WithinHalf ((c i).flat (u (i + 1) m - u i m)) ∧
    (c (i + 1)).WithinHalf ((c (i + 1)).flat (u (i + 1) m - u i m))
  sign : ∀ i m, σ i m = 1 ∨ σ i m = -1
  orient : ∀ i, o i = some (fun m => σ i m • zRot (θ i m))
  stepR : ∀ i < n, ∀ m, |θ (i + 1) m - θ i m| < Real.pi

/-- `v` is the first of the times `0`, …, `n` with `x` beyond `thr`, or `2**32 - 1`. -/
def FirstBeyond (n : ℕ) (time : ℕ → ℤ) (x : ℕ → ℝ) (thr : ℝ) (v : ℤ) : Prop :=
  IsLeast {y | y = 2 ^ 32 - 1 ∨ ∃ i ≤ n, thr < x i ∧ y = time i} v

/-- `v` is the time when `x` left `thr` for the last time before it first was beyond `cut`, or
`2**32 - 1` if it never was. -/
def LastLeft (n : ℕ) (time : ℕ → ℤ) (x : ℕ → ℝ) (thr cut : ℝ) (v : ℤ) : Prop :=
  ((∀ i ≤ n, x i ≤ cut) ∧ v = 2 ^ 32 - 1) ∨
  ∃ i j, i ≤ n ∧ cut < x i ∧ (∀ k < i, x k ≤ cut) ∧
    j ≤ i ∧ thr < x j ∧ (∀ k, j < k → k ≤ i → thr ≤ x k) ∧
    (∀ k < j, thr < x k → ∃ l, k < l ∧ l < j ∧ x l < thr) ∧ v = time j

end Verif.Pipeline
