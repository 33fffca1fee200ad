import Mathlib.Tactic.IntervalCases
import Verif.Pipeline.Props
import Verif.Pipeline.SharesLemmas
/-!
# C146: the two tables written for a keyframe agree
-/

namespace Verif.Pipeline

open Verif.Motion Verif.Dynamics Verif.Relax Verif.Gsd Verif.Process Verif.Cache

variable {N : ℕ} {ν ι : Type} [DecidableEq ι]

/-- **C146, partial.**  Full statement: "com_struct" of the row for a frame is the proportion of molecules
whose tau_F is later.  Proved: it is at least this, up to the molecules whose displacement is exactly the
distance; so when it has fallen to 1/e all but a proportion 1/e have a tau_F of at most that time.  Missing:
molecules that come back, see `C146_refuted`; without these it is equal, see `C146_no_return`. -/
theorem C146_com_struct_partial (hN : 10 ≤ N) (a : Args) (vars : Except PyErr ν) (c : Cell)
    (hdim : decide (a.mol.dimensions = 2) = c.is2D) (hmol : a.mol.positions ≠ []) {κ : ℝ} (hκ : 0 < κ)
    (hdef : a.relaxations = none) {pairs : List (List ι × GFrame PData)} {ending : Option PyErr}
    {file file' : File (Rec ι (Dict Quantity Val) (Dict String ℤ) ν)}
    {out : Option (List (Rec ι (Dict Quantity Val) (Dict String ℤ) ν))}
    (h : processFile (env a vars) (some (pairs, ending)) true file = (file', .ok out)) (k : ι)
    {n : ℕ} {t : ℕ → ℤ} {box : ℕ → List ℝ} {u s : ℕ → Fin N → V3} {θ σ : ℕ → Fin N → ℝ}
    {o : ℕ → Option (Fin N → Quat)} (hbox : box 0 = c.array) (hF : Follows c n u s θ σ o)
    (hw : a.wave = some κ)
    (hk : framesOf k (visitsOf (env a vars) pairs) = gframes t box s o n) (τ : Fin N → ℤ)
    (hτ : ∀ m : Fin N, molCell ((rows file' "molecular_relaxations").filterMap (molOf k)) m "tau_F" =
      some (τ m)) (i : ℕ) (hi : i ≤ n) :
    ∃ row x, ((rows file' "dynamics").filterMap (dynOf k))[i]? = some row ∧
      Dict.get? row .time = some (.int (t i - t 0)) ∧ Reports row .com_struct x ∧
      share (fun m => t i - t 0 < τ m) ≤
        x + share (fun m => len (c.flat (u i m - u 0 m)) = Real.pi / (2 * κ)) := by
  have hw' : waveOf a.calcWave c.box (List.ofFn (s 0)) a.wave = .ok κ := by rw [hw]; rfl
  obtain ⟨row, h1, h2, h3⟩ := (C91_true_motion hN a vars c hdim hmol hκ hdef h k hbox hF hw' hk).2 i hi
  refine ⟨row, _, h1, h2.time, (h3 κ hw).1, ?_⟩
  refine share_le_add (q := fun m => len (c.flat (u i m - u 0 m)) < Real.pi / (2 * κ)) ?_
  intro m hm
  obtain ⟨D, F, L, T2, T3, T4, hc, -, hF', -⟩ := C93_relaxations hN a vars c hdim hmol hκ hdef h k hbox hF hw' hk m
  have : F = τ m := by
    have := hc ("tau_F", F) (by simp)
    rw [hτ m] at this
    exact (Option.some.inj this).symm
  subst this
  rcases lt_trichotomy (len (c.flat (u i m - u 0 m))) (Real.pi / (2 * κ)) with h4 | h4 | h4
  · exact Or.inl h4
  · exact Or.inr h4
  · exact absurd (hF'.le hi h4) (not_le.2 hm)

/-- **C146**: when the molecules only ever move away from where they were, and none is exactly at the
distance in this frame, "com_struct" is the proportion of molecules whose tau_F is later. -/
theorem C146_no_return (hN : 10 ≤ N) (a : Args) (vars : Except PyErr ν) (c : Cell)
    (hdim : decide (a.mol.dimensions = 2) = c.is2D) (hmol : a.mol.positions ≠ []) {κ : ℝ} (hκ : 0 < κ)
    (hdef : a.relaxations = none) {pairs : List (List ι × GFrame PData)} {ending : Option PyErr}
    {file file' : File (Rec ι (Dict Quantity Val) (Dict String ℤ) ν)}
    {out : Option (List (Rec ι (Dict Quantity Val) (Dict String ℤ) ν))}
    (h : processFile (env a vars) (some (pairs, ending)) true file = (file', .ok out)) (k : ι)
    {n : ℕ} {t : ℕ → ℤ} {box : ℕ → List ℝ} {u s : ℕ → Fin N → V3} {θ σ : ℕ → Fin N → ℝ}
    {o : ℕ → Option (Fin N → Quat)} (hbox : box 0 = c.array) (hF : Follows c n u s θ σ o)
    (hw : a.wave = some κ)
    (hk : framesOf k (visitsOf (env a vars) pairs) = gframes t box s o n) (τ : Fin N → ℤ)
    (hτ : ∀ m : Fin N, molCell ((rows file' "molecular_relaxations").filterMap (molOf k)) m "tau_F" =
      some (τ m)) (ht : StrictMono t) (hmax : ∀ i ≤ n, t i - t 0 < 2 ^ 32 - 1)
    (hmono : ∀ m, ∀ i j, i ≤ j → j ≤ n → len (c.flat (u i m - u 0 m)) ≤ len (c.flat (u j m - u 0 m)))
    (i : ℕ) (hi : i ≤ n) (hex : ∀ m, len (c.flat (u i m - u 0 m)) ≠ Real.pi / (2 * κ)) :
    ∃ row, ((rows file' "dynamics").filterMap (dynOf k))[i]? = some row ∧
      Reports row .com_struct (share (fun m => t i - t 0 < τ m)) := by
  have hw' : waveOf a.calcWave c.box (List.ofFn (s 0)) a.wave = .ok κ := by rw [hw]; rfl
  obtain ⟨row, h1, h2, h3⟩ := (C91_true_motion hN a vars c hdim hmol hκ hdef h k hbox hF hw' hk).2 i hi
  refine ⟨row, h1, ?_⟩
  have h4 := (h3 κ hw).1
  have : share (fun m => t i - t 0 < τ m) =
      share (fun m => len (c.flat (u i m - u 0 m)) < Real.pi / (2 * κ)) := by
    apply share_congr
    intro m
    obtain ⟨D, F, L, T2, T3, T4, hc, -, hF', -⟩ :=
      C93_relaxations hN a vars c hdim hmol hκ hdef h k hbox hF hw' hk m
    have : F = τ m := by
      have := hc ("tau_F", F) (by simp)
      rw [hτ m] at this
      exact (Option.some.inj this).symm
    subst this
    constructor
    · intro hm
      rcases lt_trichotomy (len (c.flat (u i m - u 0 m))) (Real.pi / (2 * κ)) with h5 | h5 | h5
      · exact h5
      · exact absurd h5 (hex m)
      · exact absurd (hF'.le hi h5) (not_le.2 hm)
    · intro hm
      rcases hF'.1 with h5 | ⟨j, hj, h5, h6⟩
      · rw [h5]
        exact hmax i hi
      · rw [h6]
        beta_reduce
        have : i < j := by
          by_contra hij
          exact absurd (hmono m j i (not_lt.1 hij) hi) (by linarith)
        have := ht this
        omega
  rw [this]
  exact h4

/-- **C146, rotations.**  "rot1" is at least minus the proportion of molecules with a tau_T2 of at most this
time, and at least a half minus three halves of the proportion with such a tau_T3; "rot2" is at least minus
the proportion with such a tau_T4.  So rot1 has not fallen to 1/e before 8 in 100 molecules have a tau_T3. -/
theorem C146_rotations (hN : 10 ≤ N) (a : Args) (vars : Except PyErr ν) (c : Cell)
    (hdim : decide (a.mol.dimensions = 2) = c.is2D) (hmol : a.mol.positions ≠ []) {κ : ℝ} (hκ : 0 < κ)
    (hdef : a.relaxations = none) {pairs : List (List ι × GFrame PData)} {ending : Option PyErr}
    {file file' : File (Rec ι (Dict Quantity Val) (Dict String ℤ) ν)}
    {out : Option (List (Rec ι (Dict Quantity Val) (Dict String ℤ) ν))}
    (h : processFile (env a vars) (some (pairs, ending)) true file = (file', .ok out)) (k : ι)
    {n : ℕ} {t : ℕ → ℤ} {box : ℕ → List ℝ} {u s : ℕ → Fin N → V3} {θ σ : ℕ → Fin N → ℝ}
    {o : ℕ → Option (Fin N → Quat)} (hbox : box 0 = c.array) (hF : Follows c n u s θ σ o)
    (hw : waveOf a.calcWave c.box (List.ofFn (s 0)) a.wave = .ok κ)
    (hk : framesOf k (visitsOf (env a vars) pairs) = gframes t box s o n) (τ2 τ3 τ4 : Fin N → ℤ)
    (h2 : ∀ m : Fin N, molCell ((rows file' "molecular_relaxations").filterMap (molOf k)) m "tau_T2" =
      some (τ2 m))
    (h3 : ∀ m : Fin N, molCell ((rows file' "molecular_relaxations").filterMap (molOf k)) m "tau_T3" =
      some (τ3 m))
    (h4 : ∀ m : Fin N, molCell ((rows file' "molecular_relaxations").filterMap (molOf k)) m "tau_T4" =
      some (τ4 m)) (i : ℕ) (hi : i ≤ n) :
    ∃ row x y, ((rows file' "dynamics").filterMap (dynOf k))[i]? = some row ∧
      Dict.get? row .time = some (.int (t i - t 0)) ∧ Reports row .rot1 x ∧ Reports row .rot2 y ∧
      -share (fun m => τ2 m ≤ t i - t 0) ≤ x ∧
      1 / 2 - 3 / 2 * share (fun m => τ3 m ≤ t i - t 0) ≤ x ∧
      -share (fun m => τ4 m ≤ t i - t 0) ≤ y := by
  obtain ⟨row, h1, hr, -⟩ := (C91_true_motion hN a vars c hdim hmol hκ hdef h k hbox hF hw hk).2 i hi
  have hN0 : 0 < N := by omega
  have hpi := Real.pi_pos
  have key : ∀ m, (¬ τ2 m ≤ t i - t 0 → |θ i m - θ 0 m| ≤ Real.pi / 2) ∧
      (¬ τ3 m ≤ t i - t 0 → |θ i m - θ 0 m| ≤ Real.pi / 3) ∧
      (¬ τ4 m ≤ t i - t 0 → |θ i m - θ 0 m| ≤ Real.pi / 4) := by
    intro m
    obtain ⟨D, F, L, T2, T3, T4, hc, -, -, -, hT2, hT3, hT4⟩ :=
      C93_relaxations hN a vars c hdim hmol hκ hdef h k hbox hF hw hk m
    have e2 : T2 = τ2 m := by
      have := hc ("tau_T2", T2) (by simp)
      rw [h2 m] at this
      exact (Option.some.inj this).symm
    have e3 : T3 = τ3 m := by
      have := hc ("tau_T3", T3) (by simp)
      rw [h3 m] at this
      exact (Option.some.inj this).symm
    have e4 : T4 = τ4 m := by
      have := hc ("tau_T4", T4) (by simp)
      rw [h4 m] at this
      exact (Option.some.inj this).symm
    subst e2 e3 e4
    exact ⟨fun hn => not_lt.1 fun h => hn (hT2.le hi h), fun hn => not_lt.1 fun h => hn (hT3.le hi h),
      fun hn => not_lt.1 fun h => hn (hT4.le hi h)⟩
  refine ⟨row, _, _, h1, hr.time, hr.rot1, hr.rot2, ?_, ?_, ?_⟩
  · have := avg_ge hN0 (fun m => Real.cos (θ i m - θ 0 m)) (fun m => τ2 m ≤ t i - t 0) 0 (-1)
      (fun m _ => Real.neg_one_le_cos _) (fun m hm => by
        have h5 := abs_le.1 ((key m).1 hm)
        exact Real.cos_nonneg_of_mem_Icc ⟨by linarith, h5.2⟩)
    linarith
  · have := avg_ge hN0 (fun m => Real.cos (θ i m - θ 0 m)) (fun m => τ3 m ≤ t i - t 0) (1 / 2) (-1)
      (fun m _ => Real.neg_one_le_cos _) (fun m hm => by
        have h5 := (key m).2.1 hm
        rw [← Real.cos_abs, ← Real.cos_pi_div_three]
        exact Real.cos_le_cos_of_nonneg_of_le_pi (abs_nonneg _) (by linarith) h5)
    linarith
  · have := avg_ge hN0 (fun m => Real.cos (2 * (θ i m - θ 0 m))) (fun m => τ4 m ≤ t i - t 0) 0 (-1)
      (fun m _ => Real.neg_one_le_cos _) (fun m hm => by
        have h5 := abs_le.1 ((key m).2.2 hm)
        exact Real.cos_nonneg_of_mem_Icc ⟨by linarith, by linarith⟩)
    linarith

/-- The hypotheses of the three: the run of the example, whose molecules move away or stay, with the times
of `C93_relaxations`; tau_F of the first molecule is 3. -/
example : ∃ file', ∃ τ : Fin 10 → ℤ, processFile (env tA (.ok ())) (some (tPairs, none)) true [] = (file', .ok none) ∧
    framesOf 0 (visitsOf (env tA (.ok ())) tPairs) = gframes tT (fun _ => tC.array) tS tO 5 ∧
    Follows tC 5 tU tS tθ tσ tO ∧ tA.wave = some 2 ∧
    (∀ m : Fin 10, molCell ((rows file' "molecular_relaxations").filterMap (molOf 0)) m "tau_F" = some (τ m)) ∧
    StrictMono tT ∧ (∀ i ≤ 5, tT i - tT 0 < 2 ^ 32 - 1) ∧
    (∀ m, ∀ i j, i ≤ j → j ≤ 5 →
      len (tC.flat (tU i m - tU 0 m)) ≤ len (tC.flat (tU j m - tU 0 m))) ∧
    ∀ i m, len (tC.flat (tU i m - tU 0 m)) ≠ Real.pi / (2 * 2) := by
  obtain ⟨file', h⟩ := t_returns
  have h93 := C93_relaxations (N := 10) le_rfl tA (.ok ()) tC rfl (by simp [tA, exMol]) two_pos rfl h 0
    (box := fun _ => tC.array) rfl (t_follows 5) rfl t_frames
  have hlen : ∀ i (m : Fin 10), len (tC.flat (tU i m - tU 0 m)) = if m = 0 then (i : ℝ) else 0 := by
    intro i m
    by_cases hm : m = 0
    · simp [hm, tU, tC, Cell.flat, len, len2]
    · simp [hm, tU, tC, Cell.flat, len, len2]
  choose D F L T2 T3 T4 hc _ using h93
  refine ⟨file', F, h, t_frames, t_follows 5, rfl, fun m => hc m ("tau_F", F m) (by simp), ?_, ?_, ?_, ?_⟩
  · intro i j hij
    simp only [tT]
    omega
  · intro i hi
    simp only [tT]
    push_cast
    omega
  · intro m i j hij _
    rw [hlen, hlen]
    split
    · exact_mod_cast hij
    · exact le_rfl
  · intro i m
    rw [hlen]
    have h1 := Real.pi_gt_three
    have h2 := Real.pi_lt_d2
    split
    · intro e
      rcases i with _ | i
      · push_cast at e
        linarith
      · have : (0 : ℝ) ≤ i := Nat.cast_nonneg _
        push_cast at e
        linarith
    · intro e
      linarith

/-! ## Molecules that come back -/

/-- Positions: in frame 1 all molecules are a distance 1 away. -/
def rU : ℕ → Fin 10 → V3 := fun i _ => if i = 1 then (1, 0, 0) else 0

theorem r_follows : Follows tC 2 rU rU (fun _ _ => 0) (fun _ _ => 1) (fun _ => some fun _ => zRot 0) := by
  refine ⟨by simp [tC, Cell.Proper], ?_, ?_, fun _ _ => Or.inl rfl, fun i => by simp, ?_⟩
  · intro i _ m
    exact ⟨0, 0, 0, by simp [tC, Cell.flat, Cell.comb]⟩
  · intro i hi m
    interval_cases i
    · exact ⟨1 / 4, 0, 0, by rw [abs_lt]; constructor <;> norm_num, by simp, by simp,
        by simp [tC, rU, Cell.flat, Cell.comb]⟩
    · exact ⟨-1 / 4, 0, 0, by rw [abs_lt]; constructor <;> norm_num, by simp, by simp,
        by simp [tC, rU, Cell.flat, Cell.comb]⟩
  · intro i _ m
    simpa using Real.pi_pos

/-- The pairs a reader yields. -/
noncomputable def rPairs : List (List ℕ × GFrame PData) :=
  (List.range 3).map (fun i => ([0], gf tT (fun _ => tC.array) rU (fun _ => some fun _ => zRot 0) i))

theorem r_frames : framesOf 0 (visitsOf (env tA (.ok ())) rPairs) =
    gframes tT (fun _ => tC.array) rU (fun _ => some fun _ => zRot 0) 2 := by
  have h : ∀ i, (env tA (.ok ())).numPos
      (gf tT (fun _ => tC.array) rU (fun _ => some fun _ => zRot 0) i) ≠ 0 := by
    intro i; simp [env, gf]
  simp [rPairs, visitsOf, framesOf, gframes, List.range_succ, h]

theorem r_returns : ∃ file', processFile (env tA (.ok ())) (some (rPairs, none)) true [] =
    (file', .ok none) := by
  refine C91_returns tA () (by simp [tA, exMol]) (by simp [tA]) (by simp [tA]) rPairs [] ?_ ?_
  · intro p hp _
    simp only [rPairs, List.mem_map] at hp
    obtain ⟨i, _, rfl⟩ := hp
    refine ⟨by simp [gf], by simp [gf], tC.box, 2, ?_, rfl, by norm_num⟩
    have : (decide (tA.mol.dimensions = 2)) = tC.is2D := rfl
    rw [this]
    exact createFreudBox_cell tC
  · refine ⟨([0], gf tT (fun _ => tC.array) rU (fun _ => some fun _ => zRot 0) 0), ?_, by simp [gf], by simp⟩
    simp only [rPairs, List.mem_map, List.mem_range]
    exact ⟨0, by omega, rfl⟩

/-- **C146, refuted.**  All molecules move by 1, beyond the distance π/4, and back: the tables say that all
had relaxed after 3 steps, and that after 6 steps "com_struct" is 1. -/
theorem C146_refuted : ∃ file' row, processFile (env tA (.ok ())) (some (rPairs, none)) true [] = (file', .ok none) ∧
    (∀ m : Fin 10, molCell ((rows file' "molecular_relaxations").filterMap (molOf 0)) m "tau_F" = some 3) ∧
    ((rows file' "dynamics").filterMap (dynOf 0))[2]? = some row ∧
    Dict.get? row .time = some (.int 6) ∧ Reports row .com_struct 1 := by
  obtain ⟨file', h⟩ := r_returns
  have hpi := Real.pi_pos
  have hpi4 := Real.pi_lt_d2
  obtain ⟨row, h1, h2, h3⟩ := (C91_true_motion (N := 10) le_rfl tA (.ok ()) tC rfl (by simp [tA, exMol]) two_pos
    rfl h 0 (box := fun _ => tC.array) rfl r_follows rfl r_frames).2 2 le_rfl
  refine ⟨file', row, h, ?_, h1, h2.time, ?_⟩
  · intro m
    obtain ⟨D, F, L, T2, T3, T4, hc, -, hF, -⟩ := C93_relaxations (N := 10) le_rfl tA (.ok ()) tC rfl
      (by simp [tA, exMol]) two_pos rfl h 0 (box := fun _ => tC.array) rfl r_follows rfl r_frames m
    have hlen : ∀ i, len (tC.flat (rU i m - rU 0 m)) = if i = 1 then 1 else 0 := by
      intro i
      by_cases hi : i = 1 <;> simp [hi, rU, tC, Cell.flat, len, len2]
    have : F = 3 := by
      apply le_antisymm
      · have := hF.le (i := 1) (by omega) (by rw [hlen]; simp; linarith)
        simpa [tT] using this
      · rcases hF.1 with h5 | ⟨j, hj, h5, h6⟩
        · rw [h5]; norm_num
        · beta_reduce at h5 h6
          rw [hlen] at h5
          by_cases hj1 : j = 1
          · rw [h6, hj1]
            simp [tT]
          · rw [if_neg hj1] at h5
            have : 0 < Real.pi / (2 * 2) := by positivity
            linarith
    rw [← this]
    exact hc ("tau_F", F) (by simp)
  · have h4 := (h3 2 rfl).1
    convert h4 using 1
    have : ∀ m : Fin 10, len (tC.flat (rU 2 m - rU 0 m)) < Real.pi / (2 * 2) := by
      intro m
      have : len (tC.flat (rU 2 m - rU 0 m)) = 0 := by simp [rU, tC, Cell.flat, len, len2]
      rw [this]
      positivity
    simp [this]

end Verif.Pipeline
