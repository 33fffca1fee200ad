import Verif.Figures.Model
import Verif.Dynamics.Spec
import Verif.Molecule.Spec
/-!
# Vocabulary for the properties of figures
-/

namespace Verif.Figures

open Verif.Motion (V3 Quat)
open Verif.Frame (View)
open Verif.Molecule (Mol)

/-- `n` is the angle `a` (in radians) in whole degrees, what is beyond them cut off. -/
def WholeDegrees (a : ℝ) (n : Int) : Prop :=
  |(n : ℝ)| ≤ |a * 180 / Real.pi| ∧ |a * 180 / Real.pi| < |(n : ℝ)| + 1 ∧
    0 ≤ (n : ℝ) * (a * 180 / Real.pi)

/-- The colour `c` is the one of the hue of angle `a`, in the light or in the dark palette. -/
def Shade {C : Type} (conv : Nat → Nat → Nat → C) (light : Bool) (a : ℝ) (c : C) : Prop :=
  ∃ n : Int, ∃ h : Nat, WholeDegrees a n ∧ h < 360 ∧ (n - h) % 360 = 0 ∧
    c = if light then conv h 80 80 else conv h 100 60

/-- A frame of `N` molecules at `pos` with orientations `q`. -/
structure Holds (v : View) {N : ℕ} (pos : Fin N → V3) (q : Fin N → Quat) : Prop where
  hp : v.position = List.ofFn pos
  hq : v.orientation = List.ofFn q
  hlen : v.len = N

/-- A molecule of `K` particles at `b` with radii `r`. -/
structure Shape (m : Mol) {K : ℕ} (b : Fin K → V3) (r : Fin K → ℝ) : Prop where
  hb : m.positions = List.ofFn b
  hk : m.particles.length = K
  hr : ∀ p : Fin K, ∃ t, m.particles[p.val]? = some t ∧ Dict.get? m.radii t = some (r p)

/-- `a` is the angle by which `q` turns about z, in the range from -π to π. -/
def IsAngle (q : Quat) (a : ℝ) : Prop :=
  -Real.pi < a ∧ a ≤ Real.pi ∧
    ∀ θ, q = Verif.Motion.zRot θ → ∃ k : ℤ, a = θ + k * (2 * Real.pi)

/-- The number of entries of an array describing the ordering. -/
def OrderArr.size : OrderArr → Nat
  | .nums _ v => v.length
  | .strs v => v.length

/-- The orderings given have an entry for each of `N` molecules. -/
def Fits (N : ℕ) (v : View) (orderFunction : Option (View → OrderArr))
    (orderList : Option OrderArr) : Prop :=
  (∀ f, orderFunction = some f → (f v).size = N) ∧ (∀ l, orderList = some l → l.size = N)

/-- Row `p * N + m` of every column of `d` is about particle `p` of molecule `m`. -/
structure Aligned {C : Type} {K N : ℕ} (d : Data C) (pos : Fin N → V3) (q : Fin N → Quat)
    (b : Fin K → V3) (r : Fin K → ℝ) (ang : Fin N → ℝ) (col : Fin N → Paint C) : Prop where
  lx : d.x.length = N * K
  ly : d.y.length = N * K
  lo : d.orientation.length = N * K
  lr : d.radius.length = N * K
  lc : d.colour.length = N * K
  x : ∀ p m, d.x[p.val * N + m.val]? = some ((pos m).1 + (Dynamics.turned (q m) (b p)).1)
  y : ∀ p m, d.y[p.val * N + m.val]? = some ((pos m).2.1 + (Dynamics.turned (q m) (b p)).2.1)
  orientation : ∀ (p : Fin K) (m : Fin N), d.orientation[p.val * N + m.val]? = some (ang m)
  radius : ∀ (p : Fin K) (m : Fin N), d.radius[p.val * N + m.val]? = some (r p * (98 / 100))
  colour : ∀ (p : Fin K) (m : Fin N), d.colour[p.val * N + m.val]? = some (col m)

end Verif.Figures
