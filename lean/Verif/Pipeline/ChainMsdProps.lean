import Verif.Pipeline.ChainMsdExample
/-!
# C128: `comp_dynamics` followed by `comp_relaxations`, the diffusion constants
-/

namespace Verif.Pipeline

open Verif.Motion Verif.Dynamics Verif.Relax Verif.Gsd Verif.Process Verif.Cache Verif.Tables

variable {N : ℕ}

/-- **C128**, partial: exactly what is reported.  `j i` is the number of pairs of a frame and a keyframe that were
processed before frame `i` of the keyframe.  The constant reported is that of the growth with this number, modulo
8192, instead of the time. -/
theorem C128_position_partial (hN : 10 ≤ N) (hN' : N < 2 ^ 32) {a : Args} (hmol : a.mol.positions ≠ [])
    (hdef : a.relaxations = none) {T P : ℝ} (hT : T ≠ 2 ^ 32 - 1) (hP : P ≠ 2 ^ 32 - 1)
    {pairs : List (List ℕ × GFrame PData)} {ending : Option PyErr} {file file' : File FRec}
    {out : Option (List FRec)}
    (hrun : processFile (cenv a T P) (some (pairs, ending)) true file = (file', .ok out))
    (C : ℕ → Course N)
    (hC : ∀ k, framesOf k (visitsOf (cenv a T P) pairs) ≠ [] →
      (C k).Of a (framesOf k (visitsOf (cenv a T P) pairs)) ∧ (k : ℝ) ≠ 2 ^ 32 - 1)
    {signals : Bool} {fit : List (ℝ × ℝ) → Except PyErr RelaxTime.Fit} (hfit : Solves fit)
    {hmean : List ℝ → Except PyErr ℝ} {res : List Summary}
    (hres : compRelaxations signals fit hmean file' = .ok res) {r : Summary} (hr : r ∈ res) {k : ℕ}
    (hkey : r.key = ((k : ℝ), T, P)) {q : Quantity} {d : ℕ} {x : ℕ → ℝ} (hx : (C k).Spread q d x)
    (hthree : ThreeInside (C k).n x) :
    ∃ j : ℕ → ℕ,
      (∀ i ≤ (C k).n, (∃ f, (visitsOf (cenv a T P) pairs)[j i]? = some (k, f)) ∧
        (framesOf k ((visitsOf (cenv a T P) pairs).take (j i))).length = i) ∧
      ∀ D, Diffuses (C k).n d (fun i => ((j i % 8192 : ℕ) : ℝ)) x D →
        (∃ i i', i ≤ (C k).n ∧ i' ≤ (C k).n ∧ 2 < x i ∧ x i < 50 ∧ 2 < x i' ∧ x i' < 50 ∧
          j i % 8192 ≠ j i' % 8192) →
        Dict.get? r.vals (quantityName q) = some (some D) := by
  obtain ⟨j, rr, h1, h2, h3⟩ := chain_spread hN hN' hmol hdef hT hP hrun C hC hres hr hkey hx
  refine ⟨j, h1, ?_⟩
  rintro D hD ⟨i, i', hi, hi', a1, a2, b1, b2, hne⟩
  rw [h3, diffusion_frames hfit (by rcases hx with ⟨-, rfl, -⟩ | ⟨-, rfl, -⟩ <;> norm_num) hD hthree
    ⟨i, i', hi, hi', a1, a2, b1, b2, by simpa using (Nat.cast_injective (R := ℝ)).ne hne⟩ h2]

/-- **C128**, partial, a single keyframe with at most 8192 frames, `Δ` steps apart.  What is reported is the true
constant times `Δ`; it is the true one if the trajectory has a frame for every step. -/
theorem C128_single_partial (hN : 10 ≤ N) (hN' : N < 2 ^ 32) {a : Args} (hmol : a.mol.positions ≠ [])
    (hdef : a.relaxations = none) {T P : ℝ} (hT : T ≠ 2 ^ 32 - 1) (hP : P ≠ 2 ^ 32 - 1)
    {pairs : List (List ℕ × GFrame PData)} {ending : Option PyErr} {file file' : File FRec}
    {out : Option (List FRec)}
    (hrun : processFile (cenv a T P) (some (pairs, ending)) true file = (file', .ok out)) {k : ℕ}
    (hk : (k : ℝ) ≠ 2 ^ 32 - 1) (C : Course N)
    (honly : ∀ v ∈ visitsOf (cenv a T P) pairs, v.1 = k)
    (hC : C.Of a (framesOf k (visitsOf (cenv a T P) pairs))) (hn : C.n < 8192)
    {signals : Bool} {fit : List (ℝ × ℝ) → Except PyErr RelaxTime.Fit} (hfit : Solves fit)
    {hmean : List ℝ → Except PyErr ℝ} {res : List Summary}
    (hres : compRelaxations signals fit hmean file' = .ok res) {r : Summary} (hr : r ∈ res)
    (hkey : r.key = ((k : ℝ), T, P)) {q : Quantity} {d : ℕ} {x : ℕ → ℝ} (hx : C.Spread q d x)
    (hthree : ThreeInside C.n x) {Δ : ℤ} (hΔ : ∀ i ≤ C.n, C.t i - C.t 0 = Δ * i) {D : ℝ}
    (hD : Diffuses C.n d (fun i => ((C.t i - C.t 0 : ℤ) : ℝ)) x D) :
    Dict.get? r.vals (quantityName q) = some (some (D * Δ)) ∧
    (Δ = 1 → Dict.get? r.vals (quantityName q) = some (some D)) := by
  have hall : ∀ vs : List (ℕ × GFrame PData), (∀ v ∈ vs, v.1 = k) → framesOf k vs = vs.map Prod.snd := by
    intro vs h
    unfold framesOf
    rw [← List.filterMap_eq_map]
    apply List.filterMap_congr
    intro v hv
    simp [h v hv]
  obtain ⟨j, h1, h2⟩ := C128_position_partial hN hN' hmol hdef hT hP hrun (fun _ => C) (by
    intro k' hk'
    obtain rfl : k' = k := by
      by_contra hne
      apply hk'
      unfold framesOf
      rw [List.filterMap_eq_nil_iff]
      intro v hv
      rw [if_neg (by rw [honly v hv]; exact Ne.symm hne)]
    exact ⟨hC, hk⟩) hfit hres hr hkey hx hthree
  have hj : ∀ i ≤ C.n, j i % 8192 = i := by
    intro i hi
    obtain ⟨⟨f, h3⟩, h4⟩ := h1 i hi
    have hjlt : j i < (visitsOf (cenv a T P) pairs).length := (List.getElem?_eq_some_iff.1 h3).1
    rw [hall _ (fun v hv => honly v (List.mem_of_mem_take hv))] at h4
    simp only [List.length_map, List.length_take] at h4
    omega
  have key : Dict.get? r.vals (quantityName q) = some (some (D * Δ)) := by
    apply h2
    · obtain ⟨b, hb⟩ := hD
      refine ⟨b, fun i hi h3 h4 => ?_⟩
      simp only [hb i hi h3 h4, hΔ i hi, hj i hi]
      push_cast
      ring
    · obtain ⟨i1, i2, i3, h3, h4, h5, h6⟩ := hthree
      have e1 := h6 i1 (by simp)
      have e2 := h6 i2 (by simp)
      have l1 : i1 ≤ C.n := by omega
      have l2 : i2 ≤ C.n := by omega
      refine ⟨i1, i2, l1, l2, e1.1, e1.2, e2.1, e2.2, ?_⟩
      rw [hj i1 l1, hj i2 l2]
      omega
  refine ⟨key, ?_⟩
  rintro rfl
  rw [key]
  simp

/-- The full property: what is reported for the mean squared displacement and the mean squared rotation is the
constant of the diffusion in time. -/
def ReportsDiffusion : Prop :=
  ∀ (N : ℕ) (a : Args) (T P : ℝ) (pairs : List (List ℕ × GFrame PData)) (ending : Option PyErr)
    (file file' : File FRec) (out : Option (List FRec)) (C : ℕ → Course N) (signals : Bool)
    (fit : List (ℝ × ℝ) → Except PyErr RelaxTime.Fit) (hmean : List ℝ → Except PyErr ℝ) (res : List Summary)
    (r : Summary) (k : ℕ) (q : Quantity) (d : ℕ) (x : ℕ → ℝ) (D : ℝ),
    10 ≤ N → N < 2 ^ 32 → a.mol.positions ≠ [] → a.relaxations = none → T ≠ 2 ^ 32 - 1 → P ≠ 2 ^ 32 - 1 →
    processFile (cenv a T P) (some (pairs, ending)) true file = (file', .ok out) →
    (∀ k, framesOf k (visitsOf (cenv a T P) pairs) ≠ [] →
      (C k).Of a (framesOf k (visitsOf (cenv a T P) pairs)) ∧ (k : ℝ) ≠ 2 ^ 32 - 1) →
    Solves fit → Fits fit → IsHarmonicMean hmean → compRelaxations signals fit hmean file' = .ok res → r ∈ res →
    r.key = ((k : ℝ), T, P) → (C k).Spread q d x → ThreeInside (C k).n x →
    Diffuses (C k).n d (fun i => (((C k).t i - (C k).t 0 : ℤ) : ℝ)) x D →
    Dict.get? r.vals (quantityName q) = some (some D)

theorem d_three : ThreeInside dC.n (fun i => 2 * i) := by
  refine ⟨2, 3, 4, by norm_num, by norm_num, by simp [dC], ?_⟩
  intro l hl
  simp only [List.mem_cons, List.not_mem_nil, or_false] at hl
  rcases hl with rfl | rfl | rfl <;> norm_num

theorem d_time (i : ℕ) : dC.t i - dC.t 0 = 3 * i := by simp [dC, tT]

theorem d_diffuses : Diffuses dC.n 2 (fun i => ((dC.t i - dC.t 0 : ℤ) : ℝ)) (fun i => 2 * i) (1 / 6) := by
  refine ⟨0, fun i _ _ _ => ?_⟩
  simp only [d_time]
  push_cast
  ring

/-- In the example a frame is three steps after the one before, and the molecules diffuse with the constant 1/6;
what is reported is 1/2. -/
theorem C128_witness : ∃ file' res r,
    processFile (cenv tA 1 2) (some (dPairs, none)) true [] = (file', .ok none) ∧
    compRelaxations true lineFit oldHmean file' = .ok res ∧ r ∈ res ∧ r.key = (((0 : ℕ) : ℝ), 1, 2) ∧
    Dict.get? r.vals "msd" = some (some (1 / 2)) := by
  obtain ⟨file', res, r, hrun, hres, hr, hkey⟩ := d_chain
  refine ⟨file', res, r, hrun, hres, hr, hkey, ?_⟩
  obtain ⟨h, -⟩ := C128_single_partial (N := 10) (by norm_num) (by norm_num) (by simp [tA, exMol]) rfl
    (by norm_num) (by norm_num) hrun (by norm_num) dC (by
      intro v hv
      rw [d_visits] at hv
      obtain ⟨i, -, rfl⟩ := List.mem_map.1 hv
      rfl) d_of (by simp [dC]) lineFit_solves hres hr hkey d_spread d_three (fun i _ => d_time i) d_diffuses
  rw [show "msd" = quantityName .msd from rfl, h]
  norm_num

/-- **C128** is false. -/
theorem C128_refuted : ¬ ReportsDiffusion := by
  intro h
  obtain ⟨file', res, r, hrun, hres, hr, hkey, hget⟩ := C128_witness
  have := h 10 tA 1 2 dPairs none [] file' none (fun _ => dC) true lineFit oldHmean res r 0 .msd 2 _ _
    (by norm_num) (by norm_num) (by simp [tA, exMol]) rfl (by norm_num) (by norm_num) hrun d_C lineFit_solves
    lineFit_fits oldHmean_spec hres hr hkey d_spread d_three d_diffuses
  rw [show quantityName .msd = "msd" from rfl, hget] at this
  norm_num at this

end Verif.Pipeline
