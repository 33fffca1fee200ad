import Verif.Pipeline.Spec
import Verif.Pipeline.Model
import Verif.Dynamics.EndToEnd
import Verif.RelaxTime.Model
/-!
# Vocabulary for C111 and C112
-/

namespace Verif.Pipeline

open Verif.Motion Verif.Dynamics Verif.Gsd

/-- The relaxation times of molecules that `comp_dynamics` tabulates when none are asked for. -/
def tauNames : List String := ["tau_D", "tau_F", "tau_L", "tau_T2", "tau_T3", "tau_T4"]

/-- What happened from one keyframe on: `n + 1` configurations of `N` molecules in a cell, the times
of them, where the molecules truly were (`u`, `θ`), and what was stored (`s`, `o`); and the wave number. -/
structure Course (N : ℕ) where
  c : Cell
  κ : ℝ
  n : ℕ
  t : ℕ → ℤ
  box : ℕ → List ℝ
  u : ℕ → Fin N → V3
  s : ℕ → Fin N → V3
  θ : ℕ → Fin N → ℝ
  σ : ℕ → Fin N → ℝ
  o : ℕ → Option (Fin N → Quat)

/-- The frames that were read are those of the course, in which molecules move by less than half the cell
and turn by less than half a turn from one frame to the next, and the later frames are later. -/
structure Course.Of {N : ℕ} (C : Course N) (a : Args) (frames : List (GFrame PData)) : Prop where
  dim : decide (a.mol.dimensions = 2) = C.c.is2D
  pos : 0 < C.κ
  box : C.box 0 = C.c.array
  follows : Follows C.c C.n C.u C.s C.θ C.σ C.o
  wave : waveOf a.calcWave C.c.box (List.ofFn (C.s 0)) a.wave = .ok C.κ
  later : ∀ i, 1 ≤ i → i ≤ C.n → C.t 0 < C.t i
  frames : frames = gframes C.t C.box C.s C.o C.n

/-- How far molecule `m` is from its place at the keyframe. -/
noncomputable def Course.moved {N : ℕ} (C : Course N) (m : Fin N) (i : ℕ) : ℝ :=
  len (C.c.flat (C.u i m - C.u 0 m))

/-- By how much molecule `m` has turned since the keyframe. -/
noncomputable def Course.turned {N : ℕ} (C : Course N) (m : Fin N) (i : ℕ) : ℝ := |C.θ i m - C.θ 0 m|

/-- The times `τ` are those at which the molecules of the course relaxed, 2^32 - 1 for those that never did. -/
structure TrueTimes {N : ℕ} (C : Course N) (τ : String → Fin N → ℤ) : Prop where
  D : ∀ m, FirstBeyond C.n (fun i => C.t i - C.t 0) (C.moved m) (3 * (Real.pi / (2 * C.κ))) (τ "tau_D" m)
  F : ∀ m, FirstBeyond C.n (fun i => C.t i - C.t 0) (C.moved m) (Real.pi / (2 * C.κ)) (τ "tau_F" m)
  L : ∀ m, LastLeft C.n (fun i => C.t i - C.t 0) (C.moved m) (Real.pi / (2 * C.κ))
    (3 * (Real.pi / (2 * C.κ))) (τ "tau_L" m)
  T2 : ∀ m, FirstBeyond C.n (fun i => C.t i - C.t 0) (C.turned m) (Real.pi / 2) (τ "tau_T2" m)
  T3 : ∀ m, FirstBeyond C.n (fun i => C.t i - C.t 0) (C.turned m) (Real.pi / 3) (τ "tau_T3" m)
  T4 : ∀ m, FirstBeyond C.n (fun i => C.t i - C.t 0) (C.turned m) (Real.pi / 4) (τ "tau_T4" m)

/-- Every molecule has relaxed in every way. -/
def AllRelaxed {N : ℕ} (τ : String → Fin N → ℤ) : Prop := ∀ name ∈ tauNames, ∀ m, τ name m ≠ 2 ^ 32 - 1

/-- The fit to a straight line succeeds, or raises the exception that is caught. -/
def Fits (fit : List (ℝ × ℝ) → Except PyErr RelaxTime.Fit) : Prop :=
  ∀ l, (∃ f, fit l = .ok f ∧ 0 ≤ f.var0 ∧ 0 ≤ f.var1) ∨ fit l = .error .typeError

open Classical in
/-- The true course of the quantities that decay from 1: the averages of cos φ and cos 2φ, the proportion of
molecules within a quarter of the wave length, and the scattering function if it was asked for. -/
def Course.Decay {N : ℕ} (C : Course N) (a : Args) (q : Quantity) (x : ℕ → ℝ) : Prop :=
  (q = .rot1 ∧ ∀ i, x i = avg (fun m => Real.cos (C.θ i m - C.θ 0 m))) ∨
  (q = .rot2 ∧ ∀ i, x i = avg (fun m => Real.cos (2 * (C.θ i m - C.θ 0 m)))) ∨
  (q = .com_struct ∧ a.wave = some C.κ ∧ ∀ i, x i =
    ((Finset.univ.filter (fun m => C.moved m i < Real.pi / (2 * C.κ))).card : ℝ) / N) ∨
  (q = .scattering_function ∧ a.wave = some C.κ ∧ a.scattering = true ∧ ∀ i, x i =
    avg (fun j : Fin 360 => avg (fun m => Real.cos (C.κ * (Real.cos (2 * Real.pi * j / 360) *
      (C.c.flat (C.u i m - C.u 0 m)).1 + Real.sin (2 * Real.pi * j / 360) *
      (C.c.flat (C.u i m - C.u 0 m)).2.1)))))

/-- `i` is the first of the frames `0`, …, `n` at which `x` is below 1/e, or 0 if there is none. -/
def FirstDecayed (n : ℕ) (x : ℕ → ℝ) (i : ℕ) : Prop :=
  (i ≤ n ∧ x i < 1 / Real.exp 1 ∧ ∀ j < i, 1 / Real.exp 1 ≤ x j) ∨
  ((∀ j ≤ n, 1 / Real.exp 1 ≤ x j) ∧ i = 0)

end Verif.Pipeline
