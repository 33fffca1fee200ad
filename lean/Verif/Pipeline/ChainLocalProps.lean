import Mathlib.Tactic.IntervalCases
import Verif.Pipeline.ChainLocalLemmas
/-!
# C139: whether what is reported for a keyframe depends on other keyframes
-/

namespace Verif.Pipeline

open Verif.Motion Verif.Dynamics Verif.Relax Verif.Gsd Verif.Process Verif.Cache Verif.Tables

variable {N : ℕ}

/-- **C139**, the relaxation times of molecules.  Two runs of both commands in which a keyframe has the same frames
report it in both or in neither, with the same means, whatever the other keyframes are and in whatever order the
frames come. -/
theorem C139_molecules (hN : 10 ≤ N) (hN' : N < 2 ^ 32) {a : Args} (hmol : a.mol.positions ≠ [])
    (hdef : a.relaxations = none) {T P : ℝ} (hT : T ≠ 2 ^ 32 - 1) (hP : P ≠ 2 ^ 32 - 1)
    {pairs₁ pairs₂ : List (List ℕ × GFrame PData)} {ending₁ ending₂ : Option PyErr}
    {file₁ file₁' file₂ file₂' : File FRec} {out₁ out₂ : Option (List FRec)}
    (hrun₁ : processFile (cenv a T P) (some (pairs₁, ending₁)) true file₁ = (file₁', .ok out₁))
    (hrun₂ : processFile (cenv a T P) (some (pairs₂, ending₂)) true file₂ = (file₂', .ok out₂))
    (C₁ C₂ : ℕ → Course N)
    (hC₁ : ∀ k, framesOf k (visitsOf (cenv a T P) pairs₁) ≠ [] →
      (C₁ k).Of a (framesOf k (visitsOf (cenv a T P) pairs₁)) ∧ (k : ℝ) ≠ 2 ^ 32 - 1)
    (hC₂ : ∀ k, framesOf k (visitsOf (cenv a T P) pairs₂) ≠ [] →
      (C₂ k).Of a (framesOf k (visitsOf (cenv a T P) pairs₂)) ∧ (k : ℝ) ≠ 2 ^ 32 - 1)
    {signals₁ signals₂ : Bool} {fit₁ fit₂ : List (ℝ × ℝ) → Except PyErr RelaxTime.Fit}
    {hmean₁ hmean₂ : List ℝ → Except PyErr ℝ}
    (hh₁ : IsHarmonicMean hmean₁) (hh₂ : IsHarmonicMean hmean₂) {res₁ res₂ : List Summary}
    (hres₁ : compRelaxations signals₁ fit₁ hmean₁ file₁' = .ok res₁)
    (hres₂ : compRelaxations signals₂ fit₂ hmean₂ file₂' = .ok res₂) {k : ℕ}
    (hsame : framesOf k (visitsOf (cenv a T P) pairs₁) = framesOf k (visitsOf (cenv a T P) pairs₂)) :
    (((k : ℝ), T, P) ∈ res₁.map Summary.key ↔ ((k : ℝ), T, P) ∈ res₂.map Summary.key) ∧
    ∀ r₁ ∈ res₁, ∀ r₂ ∈ res₂, r₁.key = ((k : ℝ), T, P) → r₂.key = ((k : ℝ), T, P) → ∀ name ∈ tauNames,
      Dict.get? r₁.vals (name ++ "_mean") = Dict.get? r₂.vals (name ++ "_mean") ∧
      Dict.get? r₁.vals (name ++ "_hmean") = Dict.get? r₂.vals (name ++ "_hmean") := by
  by_cases hk : framesOf k (visitsOf (cenv a T P) pairs₁) = []
  · obtain ⟨τ₁, -, -, k₁, -⟩ := C111_times hN hN' hmol hdef hT hP hrun₁ C₁ hC₁ hh₁ hres₁
    obtain ⟨τ₂, -, -, k₂, -⟩ := C111_times hN hN' hmol hdef hT hP hrun₂ C₂ hC₂ hh₂ hres₂
    have n₁ : ((k : ℝ), T, P) ∉ res₁.map Summary.key := by
      rw [k₁]
      rintro ⟨k', e, -, -, h, -⟩
      obtain rfl : k = k' := by exact_mod_cast e
      exact h hk
    have n₂ : ((k : ℝ), T, P) ∉ res₂.map Summary.key := by
      rw [k₂]
      rintro ⟨k', e, -, -, h, -⟩
      obtain rfl : k = k' := by exact_mod_cast e
      exact h (by rw [← hsame]; exact hk)
    refine ⟨iff_of_false n₁ n₂, ?_⟩
    intro r₁ hr₁ r₂ _ e₁
    exact absurd (by rw [← e₁]; exact List.mem_map_of_mem hr₁) n₁
  · have hk' : framesOf k (visitsOf (cenv a T P) pairs₂) ≠ [] := by rw [← hsame]; exact hk
    obtain ⟨τ₁, t₁, -, k₁, m₁⟩ := C111_times hN hN' hmol hdef hT hP hrun₁ C₁ hC₁ hh₁ hres₁
    have hC₂' : ∀ k', framesOf k' (visitsOf (cenv a T P) pairs₂) ≠ [] →
        (Function.update C₂ k (C₁ k) k').Of a (framesOf k' (visitsOf (cenv a T P) pairs₂)) ∧
          (k' : ℝ) ≠ 2 ^ 32 - 1 := by
      intro k' h
      by_cases he : k' = k
      · subst he
        rw [Function.update_self, ← hsame]
        exact hC₁ k' hk
      · rw [Function.update_of_ne he]
        exact hC₂ k' h
    obtain ⟨τ₂, t₂, -, k₂, m₂⟩ := C111_times hN hN' hmol hdef hT hP hrun₂ (Function.update C₂ k (C₁ k)) hC₂' hh₂
      hres₂
    have hT₂ := t₂ k hk'
    rw [Function.update_self] at hT₂
    have heq : ∀ name ∈ tauNames, ∀ m, τ₁ k name m = τ₂ k name m := fun name hname m =>
      (t₁ k hk).unique hT₂ hname m
    constructor
    · rw [k₁, k₂]
      constructor
      · rintro ⟨k', e, -, -, h, hrel⟩
        obtain rfl : k = k' := by exact_mod_cast e
        exact ⟨k, rfl, rfl, rfl, hk', fun name hname m => by rw [← heq name hname m]; exact hrel name hname m⟩
      · rintro ⟨k', e, -, -, h, hrel⟩
        obtain rfl : k = k' := by exact_mod_cast e
        exact ⟨k, rfl, rfl, rfl, hk, fun name hname m => by rw [heq name hname m]; exact hrel name hname m⟩
    · intro r₁ hr₁ r₂ hr₂ e₁ e₂ name hname
      obtain ⟨a1, a2⟩ := m₁ r₁ hr₁ k e₁ name hname
      obtain ⟨b1, b2⟩ := m₂ r₂ hr₂ k e₂ name hname
      rw [a1, a2, b1, b2]
      simp only [heq name hname, and_self]

/-- **C139**, partial: the other quantities, if in both runs the frames of the keyframe are processed at the same
places among all pairs of a frame and a keyframe.  Missing: `C139_refuted`. -/
theorem C139_places_partial (hN : 10 ≤ N) (hN' : N < 2 ^ 32) {a : Args} (hmol : a.mol.positions ≠ [])
    (hdef : a.relaxations = none) {T P : ℝ} (hT : T ≠ 2 ^ 32 - 1) (hP : P ≠ 2 ^ 32 - 1)
    {pairs₁ pairs₂ : List (List ℕ × GFrame PData)} {ending₁ ending₂ : Option PyErr}
    {file₁ file₁' file₂ file₂' : File FRec} {out₁ out₂ : Option (List FRec)}
    (hrun₁ : processFile (cenv a T P) (some (pairs₁, ending₁)) true file₁ = (file₁', .ok out₁))
    (hrun₂ : processFile (cenv a T P) (some (pairs₂, ending₂)) true file₂ = (file₂', .ok out₂))
    (C₁ C₂ : ℕ → Course N)
    (hC₁ : ∀ k, framesOf k (visitsOf (cenv a T P) pairs₁) ≠ [] →
      (C₁ k).Of a (framesOf k (visitsOf (cenv a T P) pairs₁)) ∧ (k : ℝ) ≠ 2 ^ 32 - 1)
    (hC₂ : ∀ k, framesOf k (visitsOf (cenv a T P) pairs₂) ≠ [] →
      (C₂ k).Of a (framesOf k (visitsOf (cenv a T P) pairs₂)) ∧ (k : ℝ) ≠ 2 ^ 32 - 1)
    {signals : Bool} {fit : List (ℝ × ℝ) → Except PyErr RelaxTime.Fit} {hmean₁ hmean₂ : List ℝ → Except PyErr ℝ}
    {res₁ res₂ : List Summary}
    (hres₁ : compRelaxations signals fit hmean₁ file₁' = .ok res₁)
    (hres₂ : compRelaxations signals fit hmean₂ file₂' = .ok res₂) {k : ℕ}
    (hsame : framesOf k (visitsOf (cenv a T P) pairs₁) = framesOf k (visitsOf (cenv a T P) pairs₂))
    (hplaces : ∀ j : ℕ, (∃ f, (visitsOf (cenv a T P) pairs₁)[j]? = some (k, f)) ↔
      ∃ f, (visitsOf (cenv a T P) pairs₂)[j]? = some (k, f))
    {r₁ r₂ : Summary} (hr₁ : r₁ ∈ res₁) (hr₂ : r₂ ∈ res₂) (e₁ : r₁.key = ((k : ℝ), T, P))
    (e₂ : r₂.key = ((k : ℝ), T, P)) {q : Quantity} {y : ℕ → Option ℝ} (hy : (C₁ k).Follow a q y) :
    Dict.get? r₁.vals (quantityName q) = Dict.get? r₂.vals (quantityName q) := by
  have hC₂' : ∀ k', framesOf k' (visitsOf (cenv a T P) pairs₂) ≠ [] →
      (Function.update C₂ k (C₁ k) k').Of a (framesOf k' (visitsOf (cenv a T P) pairs₂)) ∧
        (k' : ℝ) ≠ 2 ^ 32 - 1 := by
    intro k' h
    by_cases he : k' = k
    · subst he
      rw [Function.update_self, ← hsame]
      exact hC₁ k' (by rw [hsame]; exact h)
    · rw [Function.update_of_ne he]
      exact hC₂ k' h
  obtain ⟨n1, n2⟩ := follow_name hy
  obtain ⟨j₁, rr₁, p₁, v₁, g₁⟩ := chain_value hN hN' hmol hdef hT hP hrun₁ C₁ hC₁ hres₁ hr₁ e₁ n1 n2
    (fun k' hk' => by
      obtain ⟨y', hy'⟩ := follow_other (hC₁ k' hk').1 hy
      exact (follow_rows hN hmol hdef hrun₁ (hC₁ k' hk').1 hy').1)
    (fun hk => (follow_rows hN hmol hdef hrun₁ (hC₁ k hk).1 hy).2)
  obtain ⟨j₂, rr₂, p₂, v₂, g₂⟩ := chain_value hN hN' hmol hdef hT hP hrun₂ _ hC₂' hres₂ hr₂ e₂ (y := y) n1 n2
    (fun k' hk' => by
      obtain ⟨y', hy'⟩ := follow_other (hC₂' k' hk').1 hy
      exact (follow_rows hN hmol hdef hrun₂ (hC₂' k' hk').1 hy').1)
    (fun hk => (follow_rows hN hmol hdef hrun₂ (hC₂' k hk).1 (by rw [Function.update_self]; exact hy)).2)
  rw [Function.update_self] at p₂ v₂
  have hj : ∀ i ≤ (C₁ k).n, j₁ i = j₂ i := fun i hi =>
    position_unique hplaces (p₁ i hi).1 (p₂ i hi).1 ((p₁ i hi).2.trans (p₂ i hi).2.symm)
  have hmap : (List.range ((C₁ k).n + 1)).map (fun i => ((j₁ i % 8192 : ℕ) : ℝ)) =
      (List.range ((C₁ k).n + 1)).map (fun i => ((j₂ i % 8192 : ℕ) : ℝ)) := by
    apply List.map_congr_left
    intro i hi
    rw [hj i (by have := List.mem_range.1 hi; omega)]
  rw [hmap, v₂] at v₁
  rw [g₁, g₂, Except.ok.inj v₁]

/-- The hypotheses on the places: a second keyframe that begins when the first has ended. -/
example : framesOf 0 (visitsOf (cenv tA 1 2) dPairs) =
      framesOf 0 (visitsOf (cenv tA 1 2) (dPairs ++ [([1], gf dC.t dC.box dC.s dC.o 5)])) ∧
    ∀ j : ℕ, (∃ f, (visitsOf (cenv tA 1 2) dPairs)[j]? = some (0, f)) ↔
      ∃ f, (visitsOf (cenv tA 1 2) (dPairs ++ [([1], gf dC.t dC.box dC.s dC.o 5)]))[j]? = some (0, f) := by
  have h : ∀ i, (cenv tA 1 2).numPos (gf dC.t dC.box dC.s dC.o i) ≠ 0 := by
    intro i; simp [cenv, env, gf]
  have e : visitsOf (cenv tA 1 2) (dPairs ++ [([1], gf dC.t dC.box dC.s dC.o 5)]) =
      visitsOf (cenv tA 1 2) dPairs ++ [(1, gf dC.t dC.box dC.s dC.o 5)] := by
    simp [visitsOf, h]
  rw [e]
  refine ⟨by simp [framesOf], fun j => ?_⟩
  by_cases hj : j < (visitsOf (cenv tA 1 2) dPairs).length
  · rw [List.getElem?_append_left hj]
  · rw [List.getElem?_append_right (by omega), List.getElem?_eq_none (by omega)]
    constructor
    · rintro ⟨f, h⟩; simp at h
    · rintro ⟨f, h⟩
      rcases hm : j - (visitsOf (cenv tA 1 2) dPairs).length with _ | m <;> rw [hm] at h <;> simp at h

/-- The full property: what is reported for a keyframe is the same in all runs in which the keyframe has the same
frames. -/
def OwnFrames : Prop :=
  ∀ (N : ℕ) (a : Args) (T P : ℝ) (pairs₁ pairs₂ : List (List ℕ × GFrame PData)) (ending₁ ending₂ : Option PyErr)
    (file₁ file₁' file₂ file₂' : File FRec) (out₁ out₂ : Option (List FRec)) (C₁ C₂ : ℕ → Course N)
    (signals : Bool) (fit : List (ℝ × ℝ) → Except PyErr RelaxTime.Fit) (hmean : List ℝ → Except PyErr ℝ)
    (res₁ res₂ : List Summary) (r₁ r₂ : Summary) (k : ℕ) (q : Quantity) (y : ℕ → Option ℝ),
    10 ≤ N → N < 2 ^ 32 → a.mol.positions ≠ [] → a.relaxations = none → T ≠ 2 ^ 32 - 1 → P ≠ 2 ^ 32 - 1 →
    processFile (cenv a T P) (some (pairs₁, ending₁)) true file₁ = (file₁', .ok out₁) →
    processFile (cenv a T P) (some (pairs₂, ending₂)) true file₂ = (file₂', .ok out₂) →
    (∀ k, framesOf k (visitsOf (cenv a T P) pairs₁) ≠ [] →
      (C₁ k).Of a (framesOf k (visitsOf (cenv a T P) pairs₁)) ∧ (k : ℝ) ≠ 2 ^ 32 - 1) →
    (∀ k, framesOf k (visitsOf (cenv a T P) pairs₂) ≠ [] →
      (C₂ k).Of a (framesOf k (visitsOf (cenv a T P) pairs₂)) ∧ (k : ℝ) ≠ 2 ^ 32 - 1) →
    Solves fit → Fits fit → IsHarmonicMean hmean → compRelaxations signals fit hmean file₁' = .ok res₁ →
    compRelaxations signals fit hmean file₂' = .ok res₂ →
    framesOf k (visitsOf (cenv a T P) pairs₁) = framesOf k (visitsOf (cenv a T P) pairs₂) →
    r₁ ∈ res₁ → r₂ ∈ res₂ → r₁.key = ((k : ℝ), T, P) → r₂.key = ((k : ℝ), T, P) → (C₁ k).Follow a q y →
    Dict.get? r₁.vals (quantityName q) = Dict.get? r₂.vals (quantityName q)

/-- The frames of the example for C128, when a second keyframe begins with frame 1. -/
noncomputable def wPairs : List (List ℕ × GFrame PData) :=
  (List.range 6).map (fun i => (if i = 0 then [0] else [0, 1], gf dC.t dC.box dC.s dC.o i))

/-- What happens from frame 1 on. -/
noncomputable def dC1 : Course 10 where
  c := tC
  κ := 2
  n := 4
  t := fun i => dC.t (i + 1)
  box := fun _ => tC.array
  u := fun i => dC.u (i + 1)
  s := fun i => dC.s (i + 1)
  θ := fun i => dC.θ (i + 1)
  σ := fun i => dC.σ (i + 1)
  o := fun i => dC.o (i + 1)

/-- What happens from both keyframes on. -/
noncomputable def wC (k : ℕ) : Course 10 := if k = 0 then dC else dC1

theorem w_visits : visitsOf (cenv tA 1 2) wPairs =
    [(0, gf dC.t dC.box dC.s dC.o 0), (0, gf dC.t dC.box dC.s dC.o 1), (1, gf dC.t dC.box dC.s dC.o 1),
     (0, gf dC.t dC.box dC.s dC.o 2), (1, gf dC.t dC.box dC.s dC.o 2), (0, gf dC.t dC.box dC.s dC.o 3),
     (1, gf dC.t dC.box dC.s dC.o 3), (0, gf dC.t dC.box dC.s dC.o 4), (1, gf dC.t dC.box dC.s dC.o 4),
     (0, gf dC.t dC.box dC.s dC.o 5), (1, gf dC.t dC.box dC.s dC.o 5)] := by
  have h : ∀ i, (cenv tA 1 2).numPos (gf dC.t dC.box dC.s dC.o i) ≠ 0 := by
    intro i; simp [cenv, env, gf]
  simp [wPairs, visitsOf, List.range_succ, h]

theorem w_frames : framesOf 0 (visitsOf (cenv tA 1 2) wPairs) = gframes dC.t dC.box dC.s dC.o dC.n := by
  rw [w_visits]
  simp [framesOf, gframes, dC, List.range_succ]

theorem w_frames1 : framesOf 1 (visitsOf (cenv tA 1 2) wPairs) = gframes dC1.t dC1.box dC1.s dC1.o dC1.n := by
  have h : ∀ i, gf dC1.t dC1.box dC1.s dC1.o i = gf dC.t dC.box dC.s dC.o (i + 1) := fun i => rfl
  rw [w_visits]
  simp [framesOf, gframes, show dC1.n = 4 from rfl, List.range_succ, h]

theorem w_of1 : dC1.Of tA (framesOf 1 (visitsOf (cenv tA 1 2) wPairs)) where
  dim := rfl
  pos := by norm_num [dC1]
  box := rfl
  follows := follows_shift d_follows
  wave := rfl
  later := by intro i hi _; simp only [dC1, dC, tT]; push_cast; omega
  frames := w_frames1

theorem w_C (k : ℕ) (hk : framesOf k (visitsOf (cenv tA 1 2) wPairs) ≠ []) :
    (wC k).Of tA (framesOf k (visitsOf (cenv tA 1 2) wPairs)) ∧ (k : ℝ) ≠ 2 ^ 32 - 1 := by
  have : k = 0 ∨ k = 1 := by
    by_contra h
    rw [not_or] at h
    apply hk
    rw [w_visits]
    simp [framesOf, Ne.symm h.1, Ne.symm h.2]
  rcases this with rfl | rfl
  · refine ⟨?_, by norm_num⟩
    have := d_of
    rw [d_frames] at this
    rw [w_frames]
    exact this
  · exact ⟨w_of1, by norm_num⟩

theorem w_returns : ∃ file', processFile (cenv tA 1 2) (some (wPairs, none)) true [] = (file', .ok none) := by
  have hk := env_keeps tA ((some 1, some 2) : Vars) (by simp [tA, exMol]) (by simp [tA]) (by simp [tA])
  have hvis : ∀ v ∈ visitsOf (cenv tA 1 2) wPairs, Usable tA v.2 := by
    have key : ∀ i, Usable tA (gf dC.t dC.box dC.s dC.o i) := by
      intro i
      refine ⟨by simp [gf], by simp [gf, dC], tC.box, 2, ?_, rfl, by norm_num⟩
      have : (decide (tA.mol.dimensions = 2)) = tC.is2D := rfl
      rw [this]
      exact createFreudBox_cell tC
    intro v hv
    rw [w_visits] at hv
    simp only [List.mem_cons, List.not_mem_nil, or_false] at hv
    rcases hv with rfl | rfl | rfl | rfl | rfl | rfl | rfl | rfl | rfl | rfl | rfl <;> exact key _
  have hne : visitsOf (cenv tA 1 2) wPairs ≠ [] := by rw [w_visits]; simp
  obtain ⟨h1, h2⟩ := keeps_core _ hk _ [] (by simp [Dict.get?]) hvis
  exact processFile_returns _ _ _ (some 1, some 2) h1 rfl (h2 (Or.inr hne))

/-- The run with two keyframes, from the trajectory to the table. -/
theorem w_chain : ∃ file' res r, processFile (cenv tA 1 2) (some (wPairs, none)) true [] = (file', .ok none) ∧
    compRelaxations true lineFit oldHmean file' = .ok res ∧ r ∈ res ∧ r.key = (((0 : ℕ) : ℝ), 1, 2) := by
  obtain ⟨file', hrun⟩ := w_returns
  have hmol : tA.mol.positions ≠ [] := by simp [tA, exMol]
  obtain ⟨res, hres⟩ := C111_returns (N := 10) (by norm_num) (by norm_num) hmol rfl (by norm_num) (by norm_num)
    hrun wC w_C true lineFit_fits oldHmean_spec oldHmean_error
  obtain ⟨τ, hτ, -, hkeys, -⟩ := C111_times (N := 10) (by norm_num) (by norm_num) hmol rfl (by norm_num)
    (by norm_num) hrun wC w_C oldHmean_spec hres
  have h0 : framesOf 0 (visitsOf (cenv tA 1 2) wPairs) ≠ [] := by rw [w_frames]; simp [gframes]
  obtain ⟨r, hr, hkey⟩ := List.mem_map.1 ((hkeys ((0 : ℕ) : ℝ) 1 2).2 ⟨0, rfl, rfl, rfl, h0, d_relaxed (hτ 0 h0)⟩)
  exact ⟨file', res, r, hrun, hres, hr, hkey⟩

theorem w_position {i j : ℕ} (h1 : ∃ f, (visitsOf (cenv tA 1 2) wPairs)[j]? = some (0, f))
    (h2 : (framesOf 0 ((visitsOf (cenv tA 1 2) wPairs).take j)).length = i) : j = 2 * i - 1 := by
  rw [w_visits] at h1 h2
  obtain ⟨f, h1⟩ := h1
  have hj : j < 11 := by
    have := (List.getElem?_eq_some_iff.1 h1).1
    simpa using this
  interval_cases j <;> simp [framesOf] at h1 h2 <;> omega

/-- The same frames of keyframe 0, on their own and with a second keyframe that begins with frame 1: the constant
reported for keyframe 0 is 1/2 and 1/4. -/
theorem C139_witness : ∃ file₁ file₂ res₁ res₂ r₁ r₂,
    processFile (cenv tA 1 2) (some (dPairs, none)) true [] = (file₁, .ok none) ∧
    processFile (cenv tA 1 2) (some (wPairs, none)) true [] = (file₂, .ok none) ∧
    framesOf 0 (visitsOf (cenv tA 1 2) dPairs) = framesOf 0 (visitsOf (cenv tA 1 2) wPairs) ∧
    compRelaxations true lineFit oldHmean file₁ = .ok res₁ ∧ compRelaxations true lineFit oldHmean file₂ = .ok res₂ ∧
    r₁ ∈ res₁ ∧ r₂ ∈ res₂ ∧ r₁.key = (((0 : ℕ) : ℝ), 1, 2) ∧ r₂.key = (((0 : ℕ) : ℝ), 1, 2) ∧
    Dict.get? r₁.vals "msd" = some (some (1 / 2)) ∧ Dict.get? r₂.vals "msd" = some (some (1 / 4)) := by
  obtain ⟨file₁, res₁, r₁, hrun₁, hres₁, hr₁, hkey₁, hget₁⟩ := C128_witness
  obtain ⟨file₂, res₂, r₂, hrun₂, hres₂, hr₂, hkey₂⟩ := w_chain
  refine ⟨file₁, file₂, res₁, res₂, r₁, r₂, hrun₁, hrun₂, by rw [d_frames, w_frames], hres₁, hres₂, hr₁, hr₂,
    hkey₁, hkey₂, hget₁, ?_⟩
  obtain ⟨j, h1, h2⟩ := C128_position_partial (N := 10) (by norm_num) (by norm_num) (by simp [tA, exMol]) rfl
    (by norm_num) (by norm_num) hrun₂ wC w_C lineFit_solves hres₂ hr₂ hkey₂ (q := .msd) (d := 2)
    (x := fun i => 2 * i) d_spread d_three
  have hj : ∀ i ≤ dC.n, j i % 8192 = 2 * i - 1 := by
    intro i hi
    rw [w_position (h1 i hi).1 (h1 i hi).2]
    have : dC.n = 5 := rfl
    omega
  refine h2 (1 / 4) ⟨1, ?_⟩ ⟨2, 3, ?_, ?_, ?_, ?_, ?_, ?_, ?_⟩
  · intro i hi h3 _
    simp only at h3 ⊢
    rw [hj i hi]
    have : 1 ≤ 2 * i := by
      by_contra h
      have : i = 0 := by omega
      subst this
      norm_num at h3
    rw [Nat.cast_sub this]
    push_cast
    ring
  · exact (by decide : 2 ≤ 5)
  · exact (by decide : 3 ≤ 5)
  · norm_num
  · norm_num
  · norm_num
  · norm_num
  · rw [hj 2 (by decide : 2 ≤ 5), hj 3 (by decide : 3 ≤ 5)]
    norm_num

/-- **C139** is false. -/
theorem C139_refuted : ¬ OwnFrames := by
  intro h
  obtain ⟨file₁, file₂, res₁, res₂, r₁, r₂, hrun₁, hrun₂, hsame, hres₁, hres₂, hr₁, hr₂, hkey₁, hkey₂, hget₁,
    hget₂⟩ := C139_witness
  have := h 10 tA 1 2 dPairs wPairs none none [] file₁ [] file₂ none none (fun _ => dC) wC true lineFit oldHmean
    res₁ res₂ r₁ r₂ 0 .msd (fun i => some (2 * i)) (by norm_num) (by norm_num) (by simp [tA, exMol]) rfl
    (by norm_num) (by norm_num) hrun₁ hrun₂ d_C w_C lineFit_solves lineFit_fits oldHmean_spec hres₁ hres₂ hsame
    hr₁ hr₂ hkey₁ hkey₂ (Or.inr (Or.inl ⟨2, _, d_spread, fun _ => rfl⟩))
  rw [show quantityName .msd = "msd" from rfl, hget₁, hget₂] at this
  norm_num at this

end Verif.Pipeline
