import Verif.Pipeline.RelaxLemmas
import Verif.Pipeline.ReturnLemmas
/-!
# The rows of a keyframe
-/

namespace Verif.Pipeline

open Verif.Motion Verif.Dynamics Verif.Relax Verif.Gsd Verif.Process Verif.Cache

section
variable {N : ℕ} {ν : Type} {a : Args} {vars : Except PyErr ν} {b : Box} {box : ℕ → List ℝ}
  {t : ℕ → ℤ} {s : ℕ → Fin N → V3} {o : ℕ → Option (Fin N → Quat)}

/-- What a run that returned stored for a keyframe with the frames `0`, …, `n` of a trajectory. -/
theorem keyframe_rows {ι : Type} [DecidableEq ι] (hN : 10 ≤ N)
    (hb : createFreudBox (box 0) (is2d (some a.mol)) = .ok b) (ho : Motion.Unit o) {κ : ℝ}
    (hw : WaveIs a b (List.ofFn (s 0)) κ) (hκ : 0 < κ) (hdef : a.relaxations = none)
    (hmol : a.mol.positions ≠ []) {pairs : List (List ι × GFrame PData)} {ending : Option PyErr}
    {file file' : File (Rec ι (Dict Quantity Val) (Dict String ℤ) ν)}
    {out : Option (List (Rec ι (Dict Quantity Val) (Dict String ℤ) ν))}
    (h : processFile (env a vars) (some (pairs, ending)) true file = (file', .ok out)) {k : ι}
    {n : ℕ} (hk : framesOf k (visitsOf (env a vars) pairs) = gframes t box s o n) :
    ∃ row : ℕ → Dict Quantity Val,
      (rows file' "dynamics").filterMap (dynOf k) = (List.range (n + 1)).map row ∧
      (rows file' "molecular_relaxations").filterMap (molOf k) =
        (relAfter b t s o κ (n + 1)).summary.mapIdx (fun m r => (m, r)) ∧
      ∀ i, (dynAfter b (some a.mol) a.wave 360 (t 0) (held s) (held o) (i + 1)).quantities
        a.argsort (t i) a.scattering = .ok (row i) := by
  have hw0 : a.wave ≠ some 0 := by
    intro h0
    unfold WaveIs at hw
    rw [h0] at hw
    simp only [waveOf, Except.ok.injEq] at hw
    exact hκ.ne hw
  choose row hrow using rows_exist (a := a) hN b (t 0) (fun i => t (i - 1)) (held s) (held o) hw0 hmol
  have hrow' : ∀ i, (dynAfter b (some a.mol) a.wave 360 (t 0) (held s) (held o) (i + 1)).quantities
      a.argsort (t i) a.scattering = .ok (row (i + 1)) := fun i => hrow (i + 1)
  have hsolo := solo_traj (vars := vars) (box := box) (by omega) hb ho hw hκ hdef n
    (fun i => row (i + 1)) (fun i _ => hrow' i)
  have hrows : soloRows (env a vars) (framesOf k (visitsOf (env a vars) pairs)) =
      (List.range (n + 1)).map (fun i => row (i + 1)) := by
    rw [hk, soloRows, hsolo]
    rfl
  obtain ⟨h1, h2⟩ := rows_of_keyframe (env a vars) pairs ending file file' out h k (by
    rw [hrows]; simp)
  refine ⟨fun i => row (i + 1), h1.trans hrows, ?_, hrow'⟩
  rw [h2, hk, soloSummary, hsolo]
  rfl

theorem wrap_zero (b : Box) : b.wrap 0 = 0 := by
  have h : wrap1 0 = 0 := by
    have := wrap1_of_mem (t := 0) (k := 0) (by norm_num) (by norm_num)
    simpa using this
  have hf : b.frac 0 = 0 := by
    unfold Box.frac
    by_cases h2 : b.is2D = true <;> simp [h2]
  unfold Box.wrap
  rw [hf]
  show b.coord (wrap1 0, wrap1 0, wrap1 0) = 0
  rw [h]
  unfold Box.coord
  simp

theorem sumT_first (b : Box) (s : ℕ → Fin N → V3) : sumT b (held s) 1 = fun _ => 0 := by
  funext m
  simp [sumT, held, wrap_zero]

theorem sumR_first (ho : Motion.Unit o) : sumR (held o) 1 = fun _ => 0 := by
  have h1 : toEuler 1 = 0 := by
    have := toEuler_zRot 0 (by simpa using Real.pi_pos)
    rw [zRot_zero] at this
    exact this
  funext m
  simp only [sumR, Finset.sum_range_one, held]
  cases h : o 0 with
  | none => simp [rotInc]
  | some q =>
    have hq : q m ≠ 0 := by
      intro h0
      have := ho 0 q h m
      rw [h0] at this
      simp at this
    simp [rotInc, h1, mul_inv_cancel₀ hq]

theorem held_follows {c : Cell} {n : ℕ} {u : ℕ → Fin N → V3} {θ σ : ℕ → Fin N → ℝ}
    (h : Follows c n u s θ σ o) {i : ℕ} (hi : i ≤ n) :
    Follows c (i + 1) (held u) (held s) (held θ) (held σ) (held o) where
  cell := h.cell
  image j hj m := h.image (j - 1) (by omega) m
  stepT j hj m := by
    cases j with
    | zero =>
      have : c.flat (held u (0 + 1) m - held u 0 m) = c.comb 0 0 0 := by
        simp [held, Cell.flat, Cell.comb]
      rw [this]
      exact ⟨0, 0, 0, by simp, by simp, by simp, rfl⟩
    | succ j => exact h.stepT j (by omega) m
  sign j m := h.sign (j - 1) m
  orient j := h.orient (j - 1)
  stepR j hj m := by
    cases j with
    | zero => simpa [held] using Real.pi_pos
    | succ j => exact h.stepR j (by omega) m

/-- The row as one of `compute_all`. -/
theorem computeAll_held (ho : Motion.Unit o) {i : ℕ} {row : Dict Quantity Val} (b : Box)
    (hrow : (dynAfter b (some a.mol) a.wave 360 (t 0) (held s) (held o) (i + 1)).quantities
        a.argsort (t i) a.scattering = .ok row) :
    (dynAfter b (some a.mol) a.wave 360 (t 0) (held s) (held o) i).computeAll a.argsort (t i)
      (frame (held s) (held o) (i + 1)).1 (frame (held s) (held o) (i + 1)).2 a.scattering =
      (dynAfter b (some a.mol) a.wave 360 (t 0) (held s) (held o) (i + 1), .ok row) := by
  rw [computeAll_dynAfter a.argsort b (some a.mol) a.wave 360 (t 0) (t i) (held s) (held o)
    (held_unit ho) i a.scattering, hrow]

/-- The value of the scattering function in a row. -/
theorem scattering_held (hN : 0 < N) (hb : createFreudBox (box 0) (is2d (some a.mol)) = .ok b)
    (ho : Motion.Unit o) {i : ℕ} {row : Dict Quantity Val} {κ : ℝ} (hw : a.wave = some κ)
    (hsc : a.scattering = true)
    (hrow : (dynAfter b (some a.mol) a.wave 360 (t 0) (held s) (held o) (i + 1)).quantities
        a.argsort (t i) a.scattering = .ok row) (d : Fin N → V3)
    (hd : sumT b (held s) (i + 1) = d) :
    ∃ x : ℝ, Reports row .scattering_function x ∧
      x = avg (fun j : Fin 360 => avg (fun m => Real.cos (κ *
        (Real.cos (2 * Real.pi * j / 360) * (d m).1 +
          Real.sin (2 * Real.pi * j / 360) * (d m).2.1)))) ∧ ((∀ m, d m = 0) → x = 1) := by
  have hnew := new_track hN hb a.wave 360 (t 0) (held s) (held o) (held_unit ho) i
  have hall := computeAll_held ho b hrow
  rw [hw] at hnew hall
  rw [hsc] at hall
  cases hD : Dyn.new (t 0) (box 0) (frame (held s) (held o) 0).1 (frame (held s) (held o) 0).2
      (some a.mol) (some κ) 360 with
  | error e => rw [hD] at hnew; cases hnew
  | ok D0 =>
    rw [hD] at hnew
    obtain ⟨x, h1, h2, -, -, h5⟩ := C35_isf (res := 360) (by omega) hD hnew hall hN d (by
      rw [← hd]; rfl)
    exact ⟨x, h1, by simpa using h2, h5⟩

end

theorem history_eq {n : ℕ} (f : ℕ → ℤ × List (Fl ℝ) × List (Fl ℝ)) (k : Kind) (m : ℕ) (x : ℕ → ℝ)
    (hx : ∀ i ≤ n, (if k = .rotation then (f i).2.2 else (f i).2.1).getD m none = some (x i)) :
    ofMol m (sel k ((List.range (n + 1)).map f)) =
      (List.range (n + 1)).map (fun i => ((f i).1, some (x i))) := by
  simp only [ofMol, sel, List.map_map]
  apply List.map_congr_left
  intro i hi
  simp only [List.mem_range] at hi
  simp only [Function.comp, hx i (by omega)]

theorem firstBeyond_of {n : ℕ} {time : ℕ → ℤ} {x : ℕ → ℝ} {thr : ℝ} {v : ℤ}
    (h : IsLeast {y | y = maxValue ∨ ∃ q ∈ (List.range (n + 1)).map (fun i => (time i, some (x i))),
      Exceeds q.2 (some thr) ∧ y = q.1} v) : FirstBeyond n time x thr v := by
  unfold FirstBeyond
  convert h using 1
  ext y
  simp only [Set.mem_ofPred_eq, maxValue, List.mem_map, List.mem_range, Exceeds]
  constructor
  · rintro (h | ⟨i, hi, h1, rfl⟩)
    · exact Or.inl h
    · exact Or.inr ⟨_, ⟨i, by omega, rfl⟩, ⟨_, _, rfl, rfl, h1⟩, rfl⟩
  · rintro (h | ⟨_, ⟨i, hi, rfl⟩, ⟨_, _, h1, h2, h3⟩, rfl⟩)
    · exact Or.inl h
    · simp only [Option.some.injEq] at h1 h2
      subst h1 h2
      exact Or.inr ⟨i, by omega, h3, rfl⟩

theorem exceeds_some {x y : ℝ} : Exceeds (some x) (some y) ↔ y < x := by
  constructor
  · rintro ⟨_, _, h1, h2, h3⟩
    simp only [Option.some.injEq] at h1 h2
    subst h1 h2
    exact h3
  · intro h
    exact ⟨_, _, rfl, rfl, h⟩

theorem lastLeft_of {n : ℕ} {time : ℕ → ℤ} {x : ℕ → ℝ} {thr cut : ℝ} (hc : thr ≤ cut) {v : ℤ}
    (h : ((∀ i, ¬ FirstIrreversible (some thr) (some cut)
              ((List.range (n + 1)).map (fun i => (time i, some (x i)))) i) ∧ v = maxValue) ∨
           ∃ i j, FirstIrreversible (some thr) (some cut)
              ((List.range (n + 1)).map (fun i => (time i, some (x i)))) i ∧
            LeftAt (some thr) ((List.range (n + 1)).map (fun i => (time i, some (x i)))) i j ∧
            (((List.range (n + 1)).map (fun i => (time i, some (x i))))[j]?).map Prod.fst =
              some v) : LastLeft n time x thr cut v := by
  have hget : ∀ i ≤ n, ((List.range (n + 1)).map (fun i => (time i, some (x i))))[i]? =
      some (time i, some (x i)) := by
    intro i hi
    rw [List.getElem?_map, List.getElem?_range (by omega)]
    rfl
  have hlt : ∀ i q, ((List.range (n + 1)).map (fun i => (time i, some (x i))))[i]? = some q →
      i ≤ n ∧ q = (time i, some (x i)) := by
    intro i q hq
    have hi : i ≤ n := by
      by_contra hi
      rw [List.getElem?_eq_none (by simp; omega)] at hq
      cases hq
    rw [hget i hi] at hq
    exact ⟨hi, (Option.some.inj hq).symm⟩
  have hfirst : ∀ i, FirstIrreversible (some thr) (some cut)
      ((List.range (n + 1)).map (fun i => (time i, some (x i)))) i ↔
      i ≤ n ∧ cut < x i ∧ ∀ k < i, x k ≤ cut := by
    intro i
    constructor
    · rintro ⟨⟨q, h1, -, h3⟩, h4⟩
      obtain ⟨hi, rfl⟩ := hlt i q h1
      refine ⟨hi, exceeds_some.1 h3, fun k hk => ?_⟩
      by_contra hgt
      rw [not_le] at hgt
      exact h4 k hk _ (hget k (by omega)) ⟨exceeds_some.2 (by linarith), exceeds_some.2 hgt⟩
    · rintro ⟨hi, h1, h2⟩
      refine ⟨⟨_, hget i hi, exceeds_some.2 (by linarith), exceeds_some.2 h1⟩, ?_⟩
      intro k hk q hq ⟨_, h4⟩
      obtain ⟨_, rfl⟩ := hlt k q hq
      have := h2 k hk
      have := exceeds_some.1 h4
      linarith
  rcases h with ⟨h1, rfl⟩ | ⟨i, j, h1, h2, h3⟩
  · refine Or.inl ⟨?_, rfl⟩
    intro i
    induction i using Nat.strong_induction_on with
    | _ i ih =>
      intro hi
      by_contra hgt
      rw [not_le] at hgt
      exact h1 i ((hfirst i).2 ⟨hi, hgt, fun k hk => ih k hk (by omega)⟩)
  · obtain ⟨hi, h4, h5⟩ := (hfirst i).1 h1
    obtain ⟨g1, ⟨q, g2, g3⟩, g4, g5⟩ := h2
    obtain ⟨hj, rfl⟩ := hlt j q g2
    refine Or.inr ⟨i, j, hi, h4, h5, g1, exceeds_some.1 g3, ?_, ?_, ?_⟩
    · intro k hk1 hk2
      have := g4 k _ hk1 hk2 (hget k (by omega))
      rw [exceeds_some] at this
      exact not_lt.1 this
    · intro k hk1 hk2
      obtain ⟨l, q, e1, e2, e3, e4⟩ := g5 k _ hk1 (hget k (by omega)) (exceeds_some.2 hk2)
      obtain ⟨_, rfl⟩ := hlt l q e3
      exact ⟨l, e1, e2, exceeds_some.1 e4⟩
    · rw [hget j hj] at h3
      exact (Option.some.inj h3).symm

end Verif.Pipeline
