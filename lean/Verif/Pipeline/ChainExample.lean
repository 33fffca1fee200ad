import Verif.Pipeline.ChainLemmas
/-!
# A run for C111 and C112

Ten molecules walk through a tilted cell and turn, all of them alike; six frames, three steps apart.
-/

namespace Verif.Pipeline

open Verif.Motion Verif.Dynamics Verif.Relax Verif.Gsd Verif.Process Verif.Cache Verif.Tables

/-- What happens. -/
noncomputable def eC : Course 10 where
  c := tC
  κ := 2
  n := 5
  t := tT
  box := fun _ => tC.array
  u := fun i _ => (i, 0, 0)
  s := fun i _ => if i ≤ 1 then (i, 0, 0) else (i - 4, 0, 0)
  θ := fun i _ => 3 * i
  σ := tσ
  o := fun i => some (fun m => tσ i m • zRot (3 * i))

/-- The frames, all of keyframe 0. -/
noncomputable def ePairs : List (List ℕ × GFrame PData) :=
  (List.range 6).map (fun i => ([0], gf eC.t eC.box eC.s eC.o i))

theorem e_follows : Follows eC.c eC.n eC.u eC.s eC.θ eC.σ eC.o := by
  have hpi := Real.pi_gt_three
  refine ⟨by simp [eC, tC, Cell.Proper], ?_, ?_, ?_, fun i => rfl, ?_⟩
  · intro i _ m
    by_cases h : i ≤ 1
    · exact ⟨0, 0, 0, by simp [eC, tC, Cell.flat, Cell.comb, h]⟩
    · exact ⟨-1, 0, 0, by simp [eC, tC, Cell.flat, Cell.comb, h]⟩
  · intro i _ m
    refine ⟨1 / 4, 0, 0, by rw [abs_lt]; constructor <;> norm_num, by simp, by simp, ?_⟩
    simp [eC, tC, Cell.flat, Cell.comb]
  · intro i m
    by_cases h : i % 2 = 0 <;> simp [eC, tσ, h]
  · intro i _ m
    simp only [eC]
    push_cast
    rw [show (3 * ((i : ℝ) + 1) - 3 * i) = 3 by ring]
    simpa using hpi

theorem e_visits : visitsOf (cenv tA 1 2) ePairs =
    (List.range 6).map (fun i => (0, gf eC.t eC.box eC.s eC.o i)) := by
  have h : ∀ i, (cenv tA 1 2).numPos (gf eC.t eC.box eC.s eC.o i) ≠ 0 := by
    intro i; simp [cenv, env, gf]
  simp [ePairs, visitsOf, List.range_succ, h]

theorem e_frames : framesOf 0 (visitsOf (cenv tA 1 2) ePairs) = gframes eC.t eC.box eC.s eC.o eC.n := by
  rw [e_visits]
  simp [framesOf, gframes, eC, List.range_succ]

theorem e_only {k : ℕ} (h : framesOf k (visitsOf (cenv tA 1 2) ePairs) ≠ []) : k = 0 := by
  by_contra hk
  apply h
  rw [e_visits]
  simp [framesOf, List.range_succ, Ne.symm hk]

theorem e_of : eC.Of tA (framesOf 0 (visitsOf (cenv tA 1 2) ePairs)) where
  dim := rfl
  pos := by norm_num [eC]
  box := rfl
  follows := e_follows
  wave := rfl
  later := by intro i hi _; simp only [eC, tT]; push_cast; omega
  frames := e_frames

theorem e_returns : ∃ file', processFile (cenv tA 1 2) (some (ePairs, none)) true [] = (file', .ok none) := by
  have hk := env_keeps tA ((some 1, some 2) : Vars) (by simp [tA, exMol]) (by simp [tA]) (by simp [tA])
  have hvis : ∀ v ∈ visitsOf (cenv tA 1 2) ePairs, Usable tA v.2 := by
    intro v hv
    rw [e_visits] at hv
    obtain ⟨i, -, rfl⟩ := List.mem_map.1 hv
    refine ⟨by simp [gf], by simp [gf, eC], tC.box, 2, ?_, rfl, by norm_num⟩
    have : (decide (tA.mol.dimensions = 2)) = tC.is2D := rfl
    rw [this]
    exact createFreudBox_cell tC
  have hne : visitsOf (cenv tA 1 2) ePairs ≠ [] := by rw [e_visits]; simp
  obtain ⟨h1, h2⟩ := keeps_core _ hk _ [] (by simp [Dict.get?]) hvis
  exact processFile_returns _ _ _ (some 1, some 2) h1 rfl (h2 (Or.inr hne))

theorem e_moved (m : Fin 10) (i : ℕ) : eC.moved m i = i := by
  unfold Course.moved
  have : eC.c.flat (eC.u i m - eC.u 0 m) = ((i : ℝ), 0, 0) := by simp [eC, tC, Cell.flat]
  rw [this]
  simp [len, len2]

theorem e_turned (m : Fin 10) (i : ℕ) : eC.turned m i = 3 * i := by
  unfold Course.turned
  simp [eC]

theorem firstBeyond_le {n : ℕ} {time : ℕ → ℤ} {x : ℕ → ℝ} {thr : ℝ} {v : ℤ} (h : FirstBeyond n time x thr v)
    {i : ℕ} (hi : i ≤ n) (hx : thr < x i) : v ≤ time i := h.2 (Or.inr ⟨i, hi, hx, rfl⟩)

theorem e_times {τ : String → Fin 10 → ℤ} (h : TrueTimes eC τ) :
    (∀ m, τ "tau_D" m = 9) ∧ (∀ m, τ "tau_F" m = 3) ∧ AllRelaxed τ := by
  have h1 := Real.pi_gt_three
  have h2 := Real.pi_lt_d2
  have ht : ∀ i : ℕ, eC.t i - eC.t 0 = 3 * i := by intro i; simp [eC, tT]
  have hn : eC.n = 5 := rfl
  have hκ : eC.κ = 2 := rfl
  have hD : ∀ m, τ "tau_D" m = 9 := by
    intro m
    have hd := h.D m
    have hle := firstBeyond_le hd (i := 3) (by rw [hn]; omega) (by rw [e_moved, hκ]; push_cast; linarith)
    simp only [ht] at hle
    rcases hd.1 with h3 | ⟨i, -, hx, h3⟩
    · rw [h3] at hle; norm_num at hle
    · simp only [ht] at h3
      have : 2 < i := by
        by_contra h4
        rw [e_moved, hκ] at hx
        have : (i : ℝ) ≤ 2 := by exact_mod_cast not_lt.1 h4
        linarith
      omega
  have hF : ∀ m, τ "tau_F" m = 3 := by
    intro m
    have hd := h.F m
    have hle := firstBeyond_le hd (i := 1) (by rw [hn]; omega) (by rw [e_moved, hκ]; push_cast; linarith)
    simp only [ht] at hle
    rcases hd.1 with h3 | ⟨i, -, hx, h3⟩
    · rw [h3] at hle; norm_num at hle
    · simp only [ht] at h3
      have : i ≠ 0 := by
        rintro rfl
        rw [e_moved, hκ] at hx
        push_cast at hx
        linarith
      omega
  refine ⟨hD, hF, ?_⟩
  have hT : ∀ {thr : ℝ} {v : ℤ} (m : Fin 10), thr < 3 →
      FirstBeyond eC.n (fun i => eC.t i - eC.t 0) (eC.turned m) thr v → v ≠ 2 ^ 32 - 1 := by
    intro thr v m hthr hv
    have hle := firstBeyond_le hv (i := 1) (by rw [hn]; omega) (by rw [e_turned]; push_cast; linarith)
    simp only [ht] at hle
    intro h0
    rw [h0] at hle
    norm_num at hle
  intro name hname m
  simp only [tauNames, List.mem_cons, List.not_mem_nil, or_false] at hname
  rcases hname with rfl | rfl | rfl | rfl | rfl | rfl
  · rw [hD]; norm_num
  · rw [hF]; norm_num
  · rcases h.L m with ⟨h3, -⟩ | ⟨i, j, hi, -, -, hj, -, -, -, h3⟩
    · have := h3 3 (by rw [hn]; omega)
      rw [e_moved, hκ] at this
      push_cast at this
      linarith
    · simp only [ht] at h3
      rw [h3]
      rw [hn] at hi
      omega
  · exact hT m (by linarith) (h.T2 m)
  · exact hT m (by linarith) (h.T3 m)
  · exact hT m (by linarith) (h.T4 m)

end Verif.Pipeline
