import Verif.Pipeline.ChainDynProps
import Verif.Pipeline.ChainMaxProps
import Verif.Pipeline.ChainMsdProps
/-!
# Exactly when the times and constants of the two steps together are right: C112, C128, C138
-/

namespace Verif.Pipeline

open Verif.Motion Verif.Dynamics Verif.Relax Verif.Gsd Verif.Process Verif.Cache Verif.Tables

variable {N : ℕ}

theorem reported_iff {g : Option (Option ℝ)} {j : ℕ} {d : ℤ} (h : g = some (some (j : ℝ))) :
    g = some (some (d : ℝ)) ↔ d = j := by
  rw [h]
  simp only [Option.some.injEq]
  constructor
  · intro h
    exact_mod_cast h.symm
  · rintro rfl
    simp

/-- **C112, exactly.**  The decay time that is reported for a keyframe is the time since the keyframe, of
the first frame at which the average is below 1/e, if and only if this time is the number, modulo 8192, of
pairs of a frame and a keyframe processed before. -/
theorem C112_exactly (hN : 10 ≤ N) (hN' : N < 2 ^ 32) {a : Args} (hmol : a.mol.positions ≠ [])
    (hdef : a.relaxations = none) {T P : ℝ} (hT : T ≠ 2 ^ 32 - 1) (hP : P ≠ 2 ^ 32 - 1)
    {pairs : List (List ℕ × GFrame PData)} {ending : Option PyErr} {file file' : File FRec}
    {out : Option (List FRec)}
    (hrun : processFile (cenv a T P) (some (pairs, ending)) true file = (file', .ok out))
    (C : ℕ → Course N)
    (hC : ∀ k, framesOf k (visitsOf (cenv a T P) pairs) ≠ [] →
      (C k).Of a (framesOf k (visitsOf (cenv a T P) pairs)) ∧ (k : ℝ) ≠ 2 ^ 32 - 1)
    {signals : Bool} {fit : List (ℝ × ℝ) → Except PyErr RelaxTime.Fit} {hmean : List ℝ → Except PyErr ℝ}
    {res : List Summary}
    (hres : compRelaxations signals fit hmean file' = .ok res) {r : Summary} (hr : r ∈ res) {k : ℕ}
    (hkey : r.key = ((k : ℝ), T, P)) {q : Quantity} {x : ℕ → ℝ} (hx : (C k).Decay a q x) :
    ∃ i j : ℕ, FirstDecayed (C k).n x i ∧
      (∃ f, (visitsOf (cenv a T P) pairs)[j]? = some (k, f)) ∧
      (framesOf k ((visitsOf (cenv a T P) pairs).take j)).length = i ∧
      (Dict.get? r.vals (quantityName q) = some (some (((C k).t i - (C k).t 0 : ℤ) : ℝ)) ↔
        (C k).t i - (C k).t 0 = (j % 8192 : ℕ)) := by
  obtain ⟨i, j, h1, h2, h3, h4⟩ := C112_position_partial hN hN' hmol hdef hT hP hrun C hC hres hr hkey hx
  exact ⟨i, j, h1, h2, h3, reported_iff h4⟩

/-- **C138, exactly.**  The time reported for the largest value is that of the first frame with the largest
value, if and only if this time is the number, modulo 8192, of pairs of a frame and a keyframe processed
before; when there is no value, NaN is reported. -/
theorem C138_exactly (hN : 10 ≤ N) (hN' : N < 2 ^ 32) {a : Args} (hmol : a.mol.positions ≠ [])
    (hdef : a.relaxations = none) {T P : ℝ} (hT : T ≠ 2 ^ 32 - 1) (hP : P ≠ 2 ^ 32 - 1)
    {pairs : List (List ℕ × GFrame PData)} {ending : Option PyErr} {file file' : File FRec}
    {out : Option (List FRec)}
    (hrun : processFile (cenv a T P) (some (pairs, ending)) true file = (file', .ok out))
    (C : ℕ → Course N)
    (hC : ∀ k, framesOf k (visitsOf (cenv a T P) pairs) ≠ [] →
      (C k).Of a (framesOf k (visitsOf (cenv a T P) pairs)) ∧ (k : ℝ) ≠ 2 ^ 32 - 1)
    {signals : Bool} {fit : List (ℝ × ℝ) → Except PyErr RelaxTime.Fit} {hmean : List ℝ → Except PyErr ℝ}
    {res : List Summary}
    (hres : compRelaxations signals fit hmean file' = .ok res) {r : Summary} (hr : r ∈ res) {k : ℕ}
    (hkey : r.key = ((k : ℝ), T, P)) {q : Quantity} {y : ℕ → Option ℝ} (hy : (C k).Peaked q y) :
    (∃ i j : ℕ, FirstPeak (C k).n y i ∧ (∃ f, (visitsOf (cenv a T P) pairs)[j]? = some (k, f)) ∧
      (framesOf k ((visitsOf (cenv a T P) pairs).take j)).length = i ∧
      (Dict.get? r.vals (quantityName q) = some (some (((C k).t i - (C k).t 0 : ℤ) : ℝ)) ↔
        (C k).t i - (C k).t 0 = (j % 8192 : ℕ))) ∨
    ((∀ i ≤ (C k).n, y i = none) ∧ Dict.get? r.vals (quantityName q) = some none) := by
  rcases C138_position_partial hN hN' hmol hdef hT hP hrun C hC hres hr hkey hy with
    ⟨i, j, h1, h2, h3, h4⟩ | h
  · exact Or.inl ⟨i, j, h1, h2, h3, reported_iff h4⟩
  · exact Or.inr h

/-- **C128, exactly.**  For a single keyframe with at most 8192 frames, `Δ` steps apart, the diffusion
constant reported is the true one if and only if there is a frame for every step, or the constant is zero. -/
theorem C128_exactly (hN : 10 ≤ N) (hN' : N < 2 ^ 32) {a : Args} (hmol : a.mol.positions ≠ [])
    (hdef : a.relaxations = none) {T P : ℝ} (hT : T ≠ 2 ^ 32 - 1) (hP : P ≠ 2 ^ 32 - 1)
    {pairs : List (List ℕ × GFrame PData)} {ending : Option PyErr} {file file' : File FRec}
    {out : Option (List FRec)}
    (hrun : processFile (cenv a T P) (some (pairs, ending)) true file = (file', .ok out)) {k : ℕ}
    (hk : (k : ℝ) ≠ 2 ^ 32 - 1) (C : Course N)
    (honly : ∀ v ∈ visitsOf (cenv a T P) pairs, v.1 = k)
    (hC : C.Of a (framesOf k (visitsOf (cenv a T P) pairs))) (hn : C.n < 8192)
    {signals : Bool} {fit : List (ℝ × ℝ) → Except PyErr RelaxTime.Fit} (hfit : Solves fit)
    {hmean : List ℝ → Except PyErr ℝ} {res : List Summary}
    (hres : compRelaxations signals fit hmean file' = .ok res) {r : Summary} (hr : r ∈ res)
    (hkey : r.key = ((k : ℝ), T, P)) {q : Quantity} {d : ℕ} {x : ℕ → ℝ} (hx : C.Spread q d x)
    (hthree : ThreeInside C.n x) {Δ : ℤ} (hΔ : ∀ i ≤ C.n, C.t i - C.t 0 = Δ * i) {D : ℝ}
    (hD : Diffuses C.n d (fun i => ((C.t i - C.t 0 : ℤ) : ℝ)) x D) :
    Dict.get? r.vals (quantityName q) = some (some D) ↔ Δ = 1 ∨ D = 0 := by
  rw [(C128_single_partial hN hN' hmol hdef hT hP hrun hk C honly hC hn hfit hres hr hkey hx hthree hΔ hD).1]
  simp only [Option.some.injEq]
  constructor
  · intro h
    by_cases h0 : D = 0
    · exact Or.inr h0
    · left
      have : (Δ : ℝ) = 1 := by
        have : D * (Δ - 1) = 0 := by linarith
        rcases mul_eq_zero.1 this with h | h
        · exact absurd h h0
        · linarith
      exact_mod_cast this
  · rintro (rfl | rfl)
    · simp
    · simp

/-- The hypotheses of `C112_exactly` and `C138_exactly` are met by a trajectory with frames three steps
apart, for which the wrong time is reported. -/
example : ∃ file' res r,
    processFile (cenv tA 1 2) (some (ePairs, none)) true [] = (file', .ok none) ∧
    compRelaxations true noFit oldHmean file' = .ok res ∧ r ∈ res ∧ r.key = (((0 : ℕ) : ℝ), 1, 2) ∧
    eC.t 1 - eC.t 0 = 3 ∧ Dict.get? r.vals "com_struct" = some (some 1) := by
  obtain ⟨file', res, r, h1, h2, h3, h4, -, h5, h6⟩ := C112_witness
  exact ⟨file', res, r, h1, h2, h3, h4, h5, h6⟩

/-- And those of `C128_exactly`: 1/2 in place of 1/6. -/
example : ∃ file' res r,
    processFile (cenv tA 1 2) (some (dPairs, none)) true [] = (file', .ok none) ∧
    compRelaxations true lineFit oldHmean file' = .ok res ∧ r ∈ res ∧ r.key = (((0 : ℕ) : ℝ), 1, 2) ∧
    Dict.get? r.vals "msd" = some (some (1 / 2)) := C128_witness

end Verif.Pipeline
