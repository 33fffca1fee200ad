import Verif.Pipeline.ChainMsdLemmas
/-!
# A run for C128

Ten molecules move so that the squared displacement grows by two from frame to frame, all of them alike; six
frames, three steps apart.
-/

namespace Verif.Pipeline

open Verif.Motion Verif.Dynamics Verif.Relax Verif.Gsd Verif.Process Verif.Cache Verif.Tables

/-- What happens. -/
noncomputable def dC : Course 10 where
  c := tC
  κ := 2
  n := 5
  t := tT
  box := fun _ => tC.array
  u := fun i _ => (Real.sqrt (2 * i), 0, 0)
  s := fun i _ => if i ≤ 1 then (Real.sqrt (2 * i), 0, 0) else (Real.sqrt (2 * i) - 4, 0, 0)
  θ := fun i _ => 3 * i
  σ := tσ
  o := fun i => some (fun m => tσ i m • zRot (3 * i))

/-- The frames, all of keyframe 0. -/
noncomputable def dPairs : List (List ℕ × GFrame PData) :=
  (List.range 6).map (fun i => ([0], gf dC.t dC.box dC.s dC.o i))

theorem d_follows : Follows dC.c dC.n dC.u dC.s dC.θ dC.σ dC.o := by
  have hpi := Real.pi_gt_three
  refine ⟨by simp [dC, tC, Cell.Proper], ?_, ?_, ?_, fun i => rfl, ?_⟩
  · intro i _ m
    by_cases h : i ≤ 1
    · exact ⟨0, 0, 0, by simp [dC, tC, Cell.flat, Cell.comb, h]⟩
    · exact ⟨-1, 0, 0, by simp [dC, tC, Cell.flat, Cell.comb, h]⟩
  · intro i _ m
    have h1 : Real.sqrt (2 * i) ^ 2 = 2 * i := Real.sq_sqrt (by positivity)
    have h2 : Real.sqrt (2 * ((i + 1 : ℕ) : ℝ)) ^ 2 = 2 * i + 2 := by
      rw [Real.sq_sqrt (by positivity)]; push_cast; ring
    have h3 := Real.sqrt_nonneg (2 * (i : ℝ))
    have h4 := Real.sqrt_nonneg (2 * ((i + 1 : ℕ) : ℝ))
    have h5 : Real.sqrt (2 * i) ≤ Real.sqrt (2 * ((i + 1 : ℕ) : ℝ)) :=
      Real.sqrt_le_sqrt (by push_cast; linarith)
    refine ⟨(Real.sqrt (2 * ((i + 1 : ℕ) : ℝ)) - Real.sqrt (2 * i)) / 4, 0, 0, ?_, by simp, by simp, ?_⟩
    · rw [abs_lt]
      constructor <;> nlinarith
    · simp only [dC, tC, Cell.flat, Cell.comb]
      simp
      try ring
  · intro i m
    by_cases h : i % 2 = 0 <;> simp [dC, tσ, h]
  · intro i _ m
    simp only [dC]
    push_cast
    rw [show (3 * ((i : ℝ) + 1) - 3 * i) = 3 by ring]
    simpa using hpi

theorem d_visits : visitsOf (cenv tA 1 2) dPairs =
    (List.range 6).map (fun i => (0, gf dC.t dC.box dC.s dC.o i)) := by
  have h : ∀ i, (cenv tA 1 2).numPos (gf dC.t dC.box dC.s dC.o i) ≠ 0 := by
    intro i; simp [cenv, env, gf]
  simp [dPairs, visitsOf, List.range_succ, h]

theorem d_frames : framesOf 0 (visitsOf (cenv tA 1 2) dPairs) = gframes dC.t dC.box dC.s dC.o dC.n := by
  rw [d_visits]
  simp [framesOf, gframes, dC, List.range_succ]

theorem d_only {k : ℕ} (h : framesOf k (visitsOf (cenv tA 1 2) dPairs) ≠ []) : k = 0 := by
  by_contra hk
  apply h
  rw [d_visits]
  simp [framesOf, List.range_succ, Ne.symm hk]

theorem d_of : dC.Of tA (framesOf 0 (visitsOf (cenv tA 1 2) dPairs)) where
  dim := rfl
  pos := by norm_num [dC]
  box := rfl
  follows := d_follows
  wave := rfl
  later := by intro i hi _; simp only [dC, tT]; push_cast; omega
  frames := d_frames

theorem d_C (k : ℕ) (hk : framesOf k (visitsOf (cenv tA 1 2) dPairs) ≠ []) :
    dC.Of tA (framesOf k (visitsOf (cenv tA 1 2) dPairs)) ∧ (k : ℝ) ≠ 2 ^ 32 - 1 := by
  obtain rfl := d_only hk
  exact ⟨d_of, by norm_num⟩

theorem d_returns : ∃ file', processFile (cenv tA 1 2) (some (dPairs, none)) true [] = (file', .ok none) := by
  have hk := env_keeps tA ((some 1, some 2) : Vars) (by simp [tA, exMol]) (by simp [tA]) (by simp [tA])
  have hvis : ∀ v ∈ visitsOf (cenv tA 1 2) dPairs, Usable tA v.2 := by
    intro v hv
    rw [d_visits] at hv
    obtain ⟨i, -, rfl⟩ := List.mem_map.1 hv
    refine ⟨by simp [gf], by simp [gf, dC], tC.box, 2, ?_, rfl, by norm_num⟩
    have : (decide (tA.mol.dimensions = 2)) = tC.is2D := rfl
    rw [this]
    exact createFreudBox_cell tC
  have hne : visitsOf (cenv tA 1 2) dPairs ≠ [] := by rw [d_visits]; simp
  obtain ⟨h1, h2⟩ := keeps_core _ hk _ [] (by simp [Dict.get?]) hvis
  exact processFile_returns _ _ _ (some 1, some 2) h1 rfl (h2 (Or.inr hne))

theorem d_len2 (m : Fin 10) (i : ℕ) : len2 (dC.c.flat (dC.u i m - dC.u 0 m)) = 2 * i := by
  have : dC.c.flat (dC.u i m - dC.u 0 m) = (Real.sqrt (2 * i), 0, 0) := by simp [dC, tC, Cell.flat]
  rw [this]
  have h1 : Real.sqrt (2 * i) ^ 2 = 2 * i := Real.sq_sqrt (by positivity)
  simp only [len2]
  nlinarith

theorem d_moved (m : Fin 10) (i : ℕ) : dC.moved m i = Real.sqrt (2 * i) := by
  unfold Course.moved
  rw [len, d_len2]

theorem d_turned (m : Fin 10) (i : ℕ) : dC.turned m i = 3 * i := by
  unfold Course.turned
  simp [dC]

theorem d_relaxed {τ : String → Fin 10 → ℤ} (h : TrueTimes dC τ) : AllRelaxed τ := by
  have h1 := Real.pi_gt_three
  have h2 := Real.pi_lt_d2
  have ht : ∀ i : ℕ, dC.t i - dC.t 0 = 3 * i := by intro i; simp [dC, tT]
  have hn : dC.n = 5 := rfl
  have hκ : dC.κ = 2 := rfl
  have h5 : ∀ m, 3 * (Real.pi / (2 * dC.κ)) < dC.moved m 5 := by
    intro m
    rw [d_moved, hκ]
    apply Real.lt_sqrt_of_sq_lt
    push_cast
    nlinarith
  have hT : ∀ {thr : ℝ} {v : ℤ} {x : ℕ → ℝ}, thr < x 5 →
      FirstBeyond dC.n (fun i => dC.t i - dC.t 0) x thr v → v ≠ 2 ^ 32 - 1 := by
    intro thr v x hthr hv
    have hle := firstBeyond_le hv (i := 5) (by rw [hn]) hthr
    simp only [ht] at hle
    intro h0
    rw [h0] at hle
    norm_num at hle
  have hR : ∀ m, (15 : ℝ) = dC.turned m 5 := by intro m; rw [d_turned]; norm_num
  intro name hname m
  simp only [tauNames, List.mem_cons, List.not_mem_nil, or_false] at hname
  rcases hname with rfl | rfl | rfl | rfl | rfl | rfl
  · exact hT (h5 m) (h.D m)
  · exact hT (by have := h5 m; rw [hκ] at this ⊢; linarith) (h.F m)
  · rcases h.L m with ⟨h3, -⟩ | ⟨i, j, hi, -, -, hj, -, -, -, h3⟩
    · have := h3 5 (by rw [hn])
      have := h5 m
      linarith
    · simp only [ht] at h3
      rw [h3]
      rw [hn] at hi
      omega
  · exact hT (by rw [← hR]; linarith) (h.T2 m)
  · exact hT (by rw [← hR]; linarith) (h.T3 m)
  · exact hT (by rw [← hR]; linarith) (h.T4 m)

open Classical in
/-- A solver that returns the line through points that are on one, and otherwise raises the exception that is
caught. -/
noncomputable def lineFit (l : List (ℝ × ℝ)) : Except PyErr RelaxTime.Fit :=
  if h : ∃ m b, ∀ p ∈ l, p.2 = m * p.1 + b then .ok ⟨h.choose, h.choose_spec.choose, 0, 0⟩
  else .error .typeError

theorem lineFit_solves : Solves lineFit := by
  constructor
  · intro l f hf m b
    unfold lineFit at hf
    split at hf
    · rename_i h
      have hp := h.choose_spec.choose_spec
      obtain rfl := Except.ok.inj hf
      have h0 : RelaxTime.sse l h.choose h.choose_spec.choose = 0 := by
        unfold RelaxTime.sse
        have : l.map (fun p => (h.choose * p.1 + h.choose_spec.choose - p.2) ^ 2) = l.map (fun _ => 0) := by
          apply List.map_congr_left
          intro p hp'
          rw [hp p hp']
          ring
        rw [this]
        simp
      simp only
      rw [h0]
      exact RelaxTime.sse_nonneg _ _ _
    · cases hf
  · intro l m b _ h
    refine ⟨_, dif_pos ⟨m, b, h⟩⟩

theorem lineFit_fits : Fits lineFit := by
  intro l
  unfold lineFit
  split
  · exact Or.inl ⟨_, rfl, le_refl _, le_refl _⟩
  · exact Or.inr rfl

/-- The example, from the trajectory to the table. -/
theorem d_chain : ∃ file' res r, processFile (cenv tA 1 2) (some (dPairs, none)) true [] = (file', .ok none) ∧
    compRelaxations true lineFit oldHmean file' = .ok res ∧ r ∈ res ∧ r.key = (((0 : ℕ) : ℝ), 1, 2) := by
  obtain ⟨file', hrun⟩ := d_returns
  have hmol : tA.mol.positions ≠ [] := by simp [tA, exMol]
  obtain ⟨res, hres⟩ := C111_returns (N := 10) (by norm_num) (by norm_num) hmol rfl (by norm_num) (by norm_num)
    hrun (fun _ => dC) d_C true lineFit_fits oldHmean_spec oldHmean_error
  obtain ⟨τ, hτ, -, hkeys, -⟩ := C111_times (N := 10) (by norm_num) (by norm_num) hmol rfl (by norm_num)
    (by norm_num) hrun (fun _ => dC) d_C oldHmean_spec hres
  have h0 : framesOf 0 (visitsOf (cenv tA 1 2) dPairs) ≠ [] := by rw [d_frames]; simp [gframes]
  obtain ⟨r, hr, hkey⟩ := List.mem_map.1 ((hkeys ((0 : ℕ) : ℝ) 1 2).2 ⟨0, rfl, rfl, rfl, h0, d_relaxed (hτ 0 h0)⟩)
  exact ⟨file', res, r, hrun, hres, hr, hkey⟩

theorem d_spread : dC.Spread .msd 2 (fun i => 2 * i) := by
  refine Or.inl ⟨rfl, rfl, fun i => ?_⟩
  simp only [d_len2]
  simp [avg]

end Verif.Pipeline
