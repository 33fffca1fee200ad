import Verif.Motion.Model
/-!
# Vocabulary for the properties of tracked motion

A periodic cell is described here by its three edge vectors; nothing is said about how the code
wraps positions.
-/

namespace Verif.Motion

/-- A simulation cell: edge lengths and tilt factors, in two or three dimensions. -/
structure Cell where
  Lx : ℝ
  Ly : ℝ
  Lz : ℝ
  xy : ℝ
  xz : ℝ
  yz : ℝ
  is2D : Bool

namespace Cell

/-- The array describing the cell that is passed to the code. -/
def array (c : Cell) : List ℝ := [c.Lx, c.Ly, c.Lz, c.xy, c.xz, c.yz]

/-- A cell with positive edge lengths. -/
def Proper (c : Cell) : Prop := 0 < c.Lx ∧ 0 < c.Ly ∧ (c.is2D = false → 0 < c.Lz)

/-- `α` times the first edge plus `β` times the second plus `γ` times the third; in two dimensions
there is no third. -/
def comb (c : Cell) (α β γ : ℝ) : V3 :=
  if c.is2D then α • (c.Lx, 0, 0) + β • (c.xy * c.Ly, c.Ly, 0)
  else α • (c.Lx, 0, 0) + β • (c.xy * c.Ly, c.Ly, 0) + γ • (c.xz * c.Lz, c.yz * c.Lz, c.Lz)

/-- The vectors that connect a point with its periodic images. -/
def Lattice (c : Cell) (v : V3) : Prop := ∃ i j k : ℤ, v = c.comb i j k

/-- Less than half the cell in every direction of the lattice. -/
def WithinHalf (c : Cell) (v : V3) : Prop :=
  ∃ α β γ : ℝ, |α| < 1 / 2 ∧ |β| < 1 / 2 ∧ |γ| < 1 / 2 ∧ v = c.comb α β γ

/-- At most half the cell in every direction, with one of the two ends excluded: the central cell. -/
def Central (c : Cell) (v : V3) : Prop :=
  ∃ α β γ : ℝ, (-(1 / 2) < α ∧ α ≤ 1 / 2) ∧ (-(1 / 2) < β ∧ β ≤ 1 / 2) ∧
    (-(1 / 2) < γ ∧ γ ≤ 1 / 2) ∧ v = c.comb α β γ

/-- The part of a vector in the space of the cell: in two dimensions the z component is left out. -/
def flat (c : Cell) (v : V3) : V3 := if c.is2D then (v.1, v.2.1, 0) else v

end Cell

/-- One frame as it is passed to `TrackedMotion`: positions and maybe orientations. -/
abbrev Frame := List V3 × Option (List Quat)

/-- Add frames one by one; stops at the first exception. -/
noncomputable def addAll : Tracked → List Frame → Except PyErr Tracked
  | m, [] => .ok m
  | m, f :: fs =>
    match m.add f.1 f.2 with
    | (_, some e) => .error e
    | (m', none) => addAll m' fs

/-- What is tracked after a first frame and then further ones. -/
noncomputable def track (b : Box) (first : Frame) (rest : List Frame) : Except PyErr Tracked :=
  match Tracked.new b first.1 first.2 with
  | .ok m => addAll m rest
  | .error e => .error e

/-- The frames `i`, …, `j - 1` of a trajectory of `N` molecules with positions `s` and orientations
`o`. -/
def frames {N : ℕ} (s : ℕ → Fin N → V3) (o : ℕ → Option (Fin N → Quat)) (i j : ℕ) : List Frame :=
  (List.range' i (j - i)).map (fun k => (List.ofFn (s k), (o k).map List.ofFn))

/-- The frame `i` alone. -/
def frame {N : ℕ} (s : ℕ → Fin N → V3) (o : ℕ → Option (Fin N → Quat)) (i : ℕ) : Frame :=
  (List.ofFn (s i), (o i).map List.ofFn)

/-- All orientations are unit quaternions, where there are any. -/
def Unit {N : ℕ} (o : ℕ → Option (Fin N → Quat)) : Prop :=
  ∀ i q, o i = some q → ∀ m, Quaternion.normSq (q m) = 1

/-- The rotation by the angle `θ` about the z axis. -/
noncomputable def zRot (θ : ℝ) : Quat := ⟨Real.cos (θ / 2), 0, 0, Real.sin (θ / 2)⟩

end Verif.Motion
