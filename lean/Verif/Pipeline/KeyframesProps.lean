import Verif.Pipeline.KeyframesLemmas
import Verif.Pipeline.Props
/-!
# C149: different keyframes agree on the motion
-/

namespace Verif.Pipeline

open Verif.Motion Verif.Dynamics Verif.Relax Verif.Gsd Verif.Process Verif.Cache

variable {N : ℕ} {ν ι : Type} [DecidableEq ι]

/-- **C149.**  Keyframe `k'` starts where keyframe `k` has its frame `i`, and frame `j` of `k'` is where `k` has its
frame `l`; between, the two may have used different frames.  Then the rows of `k` for `i` and `l`, and that of `k'` for
`j`, agree: the mean displacement, the root of the mean squared displacement, the mean rotation and the root of the
mean squared rotation are as the sides of a triangle, and the times add up. -/
theorem C149_keyframes (hN : 10 ≤ N) (a : Args) (vars : Except PyErr ν) (c c' : Cell)
    (hdim : decide (a.mol.dimensions = 2) = c.is2D) (hdim' : decide (a.mol.dimensions = 2) = c'.is2D)
    (hmol : a.mol.positions ≠ []) {κ κ' : ℝ} (hκ : 0 < κ) (hκ' : 0 < κ')
    (hdef : a.relaxations = none) {pairs : List (List ι × GFrame PData)} {ending : Option PyErr}
    {file file' : File (Rec ι (Dict Quantity Val) (Dict String ℤ) ν)}
    {out : Option (List (Rec ι (Dict Quantity Val) (Dict String ℤ) ν))}
    (h : processFile (env a vars) (some (pairs, ending)) true file = (file', .ok out)) (k k' : ι)
    {n n' : ℕ} {t t' : ℕ → ℤ} {box box' : ℕ → List ℝ} {u s u' s' : ℕ → Fin N → V3}
    {θ σ θ' σ' : ℕ → Fin N → ℝ} {o o' : ℕ → Option (Fin N → Quat)}
    (hbox : box 0 = c.array) (hF : Follows c n u s θ σ o)
    (hbox' : box' 0 = c'.array) (hF' : Follows c' n' u' s' θ' σ' o')
    (hw : waveOf a.calcWave c.box (List.ofFn (s 0)) a.wave = .ok κ)
    (hw' : waveOf a.calcWave c'.box (List.ofFn (s' 0)) a.wave = .ok κ')
    (hk : framesOf k (visitsOf (env a vars) pairs) = gframes t box s o n)
    (hk' : framesOf k' (visitsOf (env a vars) pairs) = gframes t' box' s' o' n')
    {i l j : ℕ} (hi : i ≤ n) (hl : l ≤ n) (hj : j ≤ n')
    (hti : t' 0 = t i) (htl : t' j = t l) (hui : u' 0 = u i) (hul : u' j = u l) (hθi : θ' 0 = θ i)
    (hθl : θ' j = θ l) :
    ∃ ri rl rj x y, ((rows file' "dynamics").filterMap (dynOf k))[i]? = some ri ∧
      ((rows file' "dynamics").filterMap (dynOf k))[l]? = some rl ∧
      ((rows file' "dynamics").filterMap (dynOf k'))[j]? = some rj ∧
      Dict.get? ri .time = some (.int x) ∧ Dict.get? rj .time = some (.int y) ∧
      Dict.get? rl .time = some (.int (x + y)) ∧
      Sides id .mean_displacement rl ri rj ∧ Sides Real.sqrt .msd rl ri rj ∧
      Sides id .mean_rotation rl ri rj ∧ Sides Real.sqrt .msr rl ri rj := by
  have hC := C91_true_motion hN a vars c hdim hmol hκ hdef h k hbox hF hw hk
  have hC' := C91_true_motion hN a vars c' hdim' hmol hκ' hdef h k' hbox' hF' hw' hk'
  obtain ⟨ri, gi, Ti, -⟩ := hC.2 i hi
  obtain ⟨rl, gl, Tl, -⟩ := hC.2 l hl
  obtain ⟨rj, gj, Tj, -⟩ := hC'.2 j hj
  have hflat : ∀ v, c'.flat v = c.flat v := by
    intro v
    unfold Cell.flat
    rw [← hdim, ← hdim']
  have hd : ∀ m, c.flat (u l m - u 0 m) = c'.flat (u' j m - u' 0 m) + c.flat (u i m - u 0 m) := by
    intro m
    rw [hflat, hul, hui]
    exact flat_split c _ _ _
  have hneg : ∀ v : V3, len (-v) = len v := by
    intro v
    simp [len, len2]
  have L1 : ∀ m, len (c.flat (u l m - u 0 m)) ≤
      len (c.flat (u i m - u 0 m)) + len (c'.flat (u' j m - u' 0 m)) := by
    intro m
    rw [hd, add_comm (len _)]
    exact len_triangle _ _
  have L2 : ∀ m, len (c.flat (u i m - u 0 m)) ≤
      len (c.flat (u l m - u 0 m)) + len (c'.flat (u' j m - u' 0 m)) := by
    intro m
    rw [← hneg (c'.flat _)]
    refine le_trans (le_of_eq ?_) (len_triangle _ _)
    rw [hd]
    congr 1
    abel
  have L3 : ∀ m, len (c'.flat (u' j m - u' 0 m)) ≤
      len (c.flat (u l m - u 0 m)) + len (c.flat (u i m - u 0 m)) := by
    intro m
    rw [← hneg (c.flat (u i m - u 0 m))]
    refine le_trans (le_of_eq ?_) (len_triangle _ _)
    rw [hd]
    congr 1
    abel
  have hr : ∀ m, θ l m - θ 0 m = (θ' j m - θ' 0 m) + (θ i m - θ 0 m) := by
    intro m
    rw [hθl, hθi]; ring
  have R1 : ∀ m, |θ l m - θ 0 m| ≤ |θ i m - θ 0 m| + |θ' j m - θ' 0 m| := by
    intro m
    rw [hr, add_comm |_|]
    exact abs_add_le _ _
  have R2 : ∀ m, |θ i m - θ 0 m| ≤ |θ l m - θ 0 m| + |θ' j m - θ' 0 m| := by
    intro m
    rw [show θ i m - θ 0 m = (θ l m - θ 0 m) - (θ' j m - θ' 0 m) by rw [hr]; ring]
    exact abs_sub _ _
  have R3 : ∀ m, |θ' j m - θ' 0 m| ≤ |θ l m - θ 0 m| + |θ i m - θ 0 m| := by
    intro m
    rw [show θ' j m - θ' 0 m = (θ l m - θ 0 m) - (θ i m - θ 0 m) by rw [hr]; ring]
    exact abs_sub _ _
  have n1 : ∀ {K : ℕ} (f : Fin K → V3), ∀ m, 0 ≤ len (f m) := fun f m => len_nonneg _
  refine ⟨ri, rl, rj, _, _, gi, gl, gj, Ti.time, Tj.time, ?_,
    ⟨_, _, _, Tl.mean_displacement, Ti.mean_displacement, Tj.mean_displacement,
      avg_triangle _ _ _ L1, avg_triangle _ _ _ L2, avg_triangle _ _ _ L3⟩,
    ⟨_, _, _, Tl.msd, Ti.msd, Tj.msd, ?_⟩,
    ⟨_, _, _, Tl.mean_rotation, Ti.mean_rotation, Tj.mean_rotation,
      avg_triangle _ _ _ R1, avg_triangle _ _ _ R2, avg_triangle _ _ _ R3⟩,
    ⟨_, _, _, Tl.msr, Ti.msr, Tj.msr, ?_⟩⟩
  · rw [Tl.time, hti, htl]
    congr 2
    ring
  · simp only [← len_sq]
    exact ⟨rms_triangle _ _ _ (n1 _) (n1 _) (n1 _) L1, rms_triangle _ _ _ (n1 _) (n1 _) (n1 _) L2,
      rms_triangle _ _ _ (n1 _) (n1 _) (n1 _) L3⟩
  · have e : ∀ x : ℝ, x ^ 2 = |x| ^ 2 := fun x => (sq_abs x).symm
    simp only [e (_ - _)]
    have n2 : ∀ (f : Fin N → ℝ), ∀ m, 0 ≤ |f m| := fun f m => abs_nonneg _
    exact ⟨rms_triangle _ _ _ (n2 _) (n2 _) (n2 _) R1, rms_triangle _ _ _ (n2 _) (n2 _) (n2 _) R2,
      rms_triangle _ _ _ (n2 _) (n2 _) (n2 _) R3⟩

/-- The hypotheses of `C149_keyframes`: keyframe 1 starts at the frame 2 of keyframe 0. -/
example : ∃ file', processFile (env tA (.ok ())) (some (tPairs, none)) true [] = (file', .ok none) ∧
    framesOf 0 (visitsOf (env tA (.ok ())) tPairs) = gframes tT (fun _ => tC.array) tS tO 5 ∧
    framesOf 1 (visitsOf (env tA (.ok ())) tPairs) = gframes (fun i => tT (i + 2)) (fun _ => tC.array)
      (fun i => tS (i + 2)) (fun i => tO (i + 2)) 3 ∧
    Follows tC 5 tU tS tθ tσ tO ∧
    Follows tC 3 (fun i => tU (i + 2)) (fun i => tS (i + 2)) (fun i => tθ (i + 2)) (fun i => tσ (i + 2))
      (fun i => tO (i + 2)) := by
  obtain ⟨file', h⟩ := t_returns
  refine ⟨file', h, t_frames, ?_, t_follows 5, ?_⟩
  · have h : ∀ i, (env tA (.ok ())).numPos (gf tT (fun _ => tC.array) tS tO i) ≠ 0 := by
      intro i; simp [env, gf]
    have e : gframes (fun i => tT (i + 2)) (fun _ => tC.array) (fun i => tS (i + 2)) (fun i => tO (i + 2)) 3 =
        [2, 3, 4, 5].map (gf tT (fun _ => tC.array) tS tO) := rfl
    rw [e]
    simp [tPairs, visitsOf, framesOf, List.range_succ, h]
  · have h := t_follows 5
    exact ⟨h.cell, fun i hi => h.image (i + 2) (by omega), fun i hi => h.stepT (i + 2) (by omega),
      fun i => h.sign (i + 2), fun i => h.orient (i + 2), fun i hi => h.stepR (i + 2) (by omega)⟩

end Verif.Pipeline
