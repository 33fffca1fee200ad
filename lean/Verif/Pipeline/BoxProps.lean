import Verif.Pipeline.Props
/-!
# Properties of the whole of `process_file`, C95: cells that change
-/

namespace Verif.Pipeline

open Verif.Motion Verif.Dynamics Verif.Relax Verif.Gsd Verif.Process Verif.Cache

variable {N : ℕ} {ν ι : Type} [DecidableEq ι]

/-! ## C95 -/

/-- The property as stated: also when the cell changes from frame to frame, the rows of a keyframe are
those of the true motion. -/
def ChangingCell : Prop :=
  ∀ (N : ℕ), 10 ≤ N → ∀ (a : Args) (c : ℕ → Cell), decide (a.mol.dimensions = 2) = (c 0).is2D →
    a.mol.positions ≠ [] → a.wave = some 2 → a.relaxations = none →
    ∀ (t : ℕ → ℤ) (u s : ℕ → Fin N → V3) (θ σ : ℕ → Fin N → ℝ) (o : ℕ → Option (Fin N → Quat)) (n : ℕ),
    FollowsCells c n u s θ σ o →
    ∀ file' : File (Rec ℕ (Dict Quantity Val) (Dict String ℤ) Unit),
    processFile (env a (.ok ())) (some ((gframes t (fun i => (c i).array) s o n).map
      (fun f => ([0], f)), none)) true [] = (file', .ok none) →
    ∀ i ≤ n, ∃ row, ((rows file' "dynamics").filterMap (dynOf 0))[i]? = some row ∧
      TrueRow row (t i - t 0) (fun m => (c 0).flat (u i m - u 0 m)) (fun m => θ i m - θ 0 m)

/-- The boxes of all frames but the first of a keyframe are not looked at: files that differ in nothing
else give the same rows and molecular relaxations for it. -/
theorem C95_box_ignored (hN : 10 ≤ N) (a : Args) (vars : Except PyErr ν) {b : Box}
    (hmol : a.mol.positions ≠ []) {κ : ℝ} (hκ : 0 < κ) (hdef : a.relaxations = none)
    {t : ℕ → ℤ} {box box' : ℕ → List ℝ} {s : ℕ → Fin N → V3} {o : ℕ → Option (Fin N → Quat)}
    (hb : createFreudBox (box 0) (decide (a.mol.dimensions = 2)) = .ok b) (ho : Motion.Unit o)
    (hw : waveOf a.calcWave b (List.ofFn (s 0)) a.wave = .ok κ) (hbox : box' 0 = box 0)
    {pairs pairs' : List (List ι × GFrame PData)} {ending ending' : Option PyErr}
    {file₁ file₁' file₂ file₂' : File (Rec ι (Dict Quantity Val) (Dict String ℤ) ν)}
    {out₁ out₂ : Option (List (Rec ι (Dict Quantity Val) (Dict String ℤ) ν))}
    (h₁ : processFile (env a vars) (some (pairs, ending)) true file₁ = (file₁', .ok out₁))
    (h₂ : processFile (env a vars) (some (pairs', ending')) true file₂ = (file₂', .ok out₂))
    (k : ι) {n : ℕ}
    (hk₁ : framesOf k (visitsOf (env a vars) pairs) = gframes t box s o n)
    (hk₂ : framesOf k (visitsOf (env a vars) pairs') = gframes t box' s o n) :
    (rows file₁' "dynamics").filterMap (dynOf k) = (rows file₂' "dynamics").filterMap (dynOf k) ∧
    (rows file₁' "molecular_relaxations").filterMap (molOf k) =
      (rows file₂' "molecular_relaxations").filterMap (molOf k) := by
  obtain ⟨r₁, e₁, m₁, q₁⟩ := keyframe_rows hN hb ho hw hκ hdef hmol h₁ hk₁
  obtain ⟨r₂, e₂, m₂, q₂⟩ := keyframe_rows hN (by rw [hbox]; exact hb) ho hw hκ hdef hmol h₂ hk₂
  have : r₁ = r₂ := by
    funext i
    have := (q₁ i).symm.trans (q₂ i)
    exact Except.ok.inj this
  rw [e₁, e₂, m₁, m₂, this]
  exact ⟨rfl, rfl⟩

/-- A square cell. -/
noncomputable def bC (L : ℝ) : Cell := ⟨L, L, 1, 0, 0, 0, true⟩

/-- **C95 is false**: in a cell that grows from 4 to 5 a molecule moves from 1.5 to 3, which is stored as
-2.  The reported displacement is that to the image of -2 in the first cell, 2. -/
theorem C95_changing_cell_refuted : ¬ ChangingCell := by
  intro h
  have hpi := Real.pi_pos
  let c : ℕ → Cell := fun i => if i = 0 then bC 4 else bC 5
  let u : ℕ → Fin 10 → V3 := fun i m => if m = 0 then (if i = 0 then (3 / 2, 0, 0) else (3, 0, 0)) else 0
  let s : ℕ → Fin 10 → V3 := fun i m =>
    if m = 0 then (if i = 0 then (3 / 2, 0, 0) else (-2, 0, 0)) else 0
  let θ : ℕ → Fin 10 → ℝ := fun _ _ => 0
  let σ : ℕ → Fin 10 → ℝ := fun _ _ => 1
  let o : ℕ → Option (Fin 10 → Quat) := fun i => some (fun m => σ i m • zRot (θ i m))
  let t : ℕ → ℤ := fun i => i
  have hF : FollowsCells c 1 u s θ σ o := by
    refine ⟨?_, ?_, ?_, ?_, fun _ _ => Or.inl rfl, fun _ => rfl, ?_⟩
    · intro i _
      by_cases hi : i = 0 <;> simp [c, bC, hi, Cell.Proper]
    · intro i _
      by_cases hi : i = 0 <;> simp [c, bC, hi]
    · intro i _ m
      by_cases hm : m = 0
      · by_cases hi : i = 0
        · exact ⟨0, 0, 0, by simp [c, u, s, hi, hm, bC, Cell.flat, Cell.comb]⟩
        · refine ⟨-1, 0, 0, ?_⟩
          simp [c, u, s, hi, hm, bC, Cell.flat, Cell.comb]
          norm_num
      · exact ⟨0, 0, 0, by by_cases hi : i = 0 <;> simp [c, u, s, hm, hi, bC, Cell.flat, Cell.comb]⟩
    · intro i hi m
      obtain rfl : i = 0 := by omega
      by_cases hm : m = 0
      · refine ⟨⟨3 / 8, 0, 0, by rw [abs_lt]; constructor <;> norm_num, by simp, by simp, ?_⟩,
          ⟨3 / 10, 0, 0, by rw [abs_lt]; constructor <;> norm_num, by simp, by simp, ?_⟩⟩ <;>
        · simp [c, u, hm, bC, Cell.flat, Cell.comb]
          norm_num
      · exact ⟨⟨0, 0, 0, by simp, by simp, by simp, by simp [c, u, hm, bC, Cell.flat, Cell.comb]⟩,
          ⟨0, 0, 0, by simp, by simp, by simp, by simp [c, u, hm, bC, Cell.flat, Cell.comb]⟩⟩
    · intro i _ m
      simpa [θ] using hpi
  have ho : Motion.Unit o := by
    intro i q hq m
    simp only [o, Option.some.injEq] at hq
    subst hq
    simp only [σ, one_smul, θ, zRot_zero]
    simp
  let a : Args := ⟨Classical.choose exists_sorts, fun _ _ => .error .valueError, exMol, some 2, false, none⟩
  obtain ⟨file', hrun⟩ := C91_returns (ι := ℕ) a () (by simp [a, exMol]) (by simp [a]) (by simp [a])
    ((gframes t (fun i => (c i).array) s o 1).map (fun f => ([0], f))) [] (by
      intro p hp _
      simp only [gframes, List.map_map, List.mem_map] at hp
      obtain ⟨i, _, rfl⟩ := hp
      refine ⟨by simp [gf], by simp [gf, o], (c i).box, 2, ?_, rfl, by norm_num⟩
      have h2 : (decide (a.mol.dimensions = 2)) = (c i).is2D := by
        by_cases hi : i = 0 <;> simp [c, hi, bC, a, exMol]
      rw [h2]
      exact createFreudBox_cell (c i)) ⟨([0], gf t (fun i => (c i).array) s o 0), by
        simp [gframes, List.range_succ], by simp [gf], by simp⟩
  obtain ⟨row, hr1, hr2⟩ := h 10 le_rfl a c (by simp [c, bC, a, exMol]) (by simp [a, exMol]) rfl rfl t u s θ
    σ o 1 hF file' hrun 1 le_rfl
  have hk : framesOf 0 (visitsOf (env a (.ok ())) ((gframes t (fun i => (c i).array) s o 1).map
      (fun f => ([0], f)))) = gframes t (fun i => (c i).array) s o 1 := by
    have hp : ∀ i, (env a (.ok ())).numPos (gf t (fun i => (c i).array) s o i) ≠ 0 := by
      intro i; simp [env, gf]
    simp [visitsOf, framesOf, gframes, List.range_succ, hp]
  have hb : createFreudBox (c 0).array (is2d (some a.mol)) = .ok (bC 4).box := createFreudBox_cell (bC 4)
  obtain ⟨r, e1, -, e3⟩ := keyframe_rows (box := fun i => (c i).array) (κ := 2) le_rfl hb ho rfl
    (by norm_num) rfl (by simp [a, exMol]) hrun hk
  rw [e1] at hr1
  simp only [List.getElem?_map, List.getElem?_range (show 1 < 1 + 1 by omega), Option.map_some,
    Option.some.injEq] at hr1
  subst hr1
  obtain ⟨md, -, -, -, -, g1, -, -, -, -, g2, -⟩ := C33_moments (computeAll_held ho _ (e3 1)) (by omega)
    _ _ rfl rfl
  have h3 := hr2.mean_displacement
  unfold Reports at h3 g1
  rw [g1] at h3
  simp only [Option.some.injEq, Val.num.injEq] at h3
  rw [g2] at h3
  have hs0 : ∀ m : Fin 10, m ≠ 0 → sumT (bC 4).box (held s) 2 m = 0 := by
    intro m hm
    simp [sumT, Finset.sum_range_succ, held, s, hm, wrap_zero]
  have hs1 : sumT (bC 4).box (held s) 2 0 = (1 / 2, 0, 0) := by
    have hw := wrap_image (bC 4) (by simp [bC, Cell.Proper]) ((3 / 2, 0, 0) - (-2, 0, 0)) (-(1 / 8)) 0 0 1 0 0
      (by constructor <;> norm_num) (by constructor <;> norm_num) (by constructor <;> norm_num) (by
        simp [bC, Cell.flat, Cell.comb]; norm_num)
    simp only [sumT, Finset.sum_range_succ, Finset.sum_range_zero, held, s]
    simp only [if_true, zero_add, Nat.sub_self, Nat.zero_sub, sub_self, wrap_zero]
    rw [show (1 + 1 - 1 : ℕ) = 1 from rfl, if_neg one_ne_zero, hw]
    simp [bC, Cell.comb]
    norm_num
  have l0 : len (0 : V3) = 0 := by simp [len, len2]
  have lx : ∀ x : ℝ, 0 ≤ x → len ((x, 0, 0) : V3) = x := by
    intro x hx
    simp [len, len2, Real.sqrt_mul_self hx]
  have a1 : avg (fun m : Fin 10 => len (sumT (bC 4).box (held s) (1 + 1) m)) = 1 / 2 / 10 := by
    unfold avg
    rw [Finset.sum_eq_single 0 (fun m _ hm => by rw [hs0 m hm, l0]) (by simp), hs1, lx _ (by norm_num)]
    norm_num
  have a2 : avg (fun m : Fin 10 => len ((c 0).flat (u 1 m - u 0 m))) = 3 / 2 / 10 := by
    unfold avg
    rw [Finset.sum_eq_single 0 (fun m _ hm => by simp [u, hm, c, bC, Cell.flat, len, len2]) (by simp)]
    have : (c 0).flat (u 1 0 - u 0 0) = (3 / 2, 0, 0) := by
      simp [c, bC, u, Cell.flat]; norm_num
    rw [this, lx _ (by norm_num)]
    norm_num
  have h4 : avg (fun m : Fin 10 => len (sumT (bC 4).box (held s) (1 + 1) m)) =
      avg (fun m : Fin 10 => len ((c 0).flat (u 1 m - u 0 m))) := h3
  rw [a1, a2] at h4
  norm_num at h4

open Classical in
/-- **C95, the part that holds.**  Missing for the full statement: molecules stored as images in other
cells than the first (`C95_changing_cell_refuted`).  The rows are those of the true motion if the stored
positions are images in the first cell, and the steps less than half of it: so when the cell stays
the same, and also in changing cells for molecules that do not cross its boundary. -/
theorem C95_changing_cell_partial (hN : 10 ≤ N) (a : Args) (vars : Except PyErr ν) (c : ℕ → Cell)
    (hdim : decide (a.mol.dimensions = 2) = (c 0).is2D) (hmol : a.mol.positions ≠ []) {κ : ℝ} (hκ : 0 < κ)
    (hdef : a.relaxations = none) {pairs : List (List ι × GFrame PData)} {ending : Option PyErr}
    {file file' : File (Rec ι (Dict Quantity Val) (Dict String ℤ) ν)}
    {out : Option (List (Rec ι (Dict Quantity Val) (Dict String ℤ) ν))}
    (h : processFile (env a vars) (some (pairs, ending)) true file = (file', .ok out)) (k : ι)
    {n : ℕ} {t : ℕ → ℤ} {u s : ℕ → Fin N → V3} {θ σ : ℕ → Fin N → ℝ}
    {o : ℕ → Option (Fin N → Quat)} (hF : FollowsCells c n u s θ σ o)
    (hin : (∀ i ≤ n, c i = c 0) ∨ ((∀ i ≤ n, ∀ m, s i m = u i m) ∧
      ∀ i < n, ∀ m, (c 0).WithinHalf ((c 0).flat (u (i + 1) m - u i m))))
    (hw : waveOf a.calcWave (c 0).box (List.ofFn (s 0)) a.wave = .ok κ)
    (hk : framesOf k (visitsOf (env a vars) pairs) = gframes t (fun i => (c i).array) s o n) :
    ((rows file' "dynamics").filterMap (dynOf k)).length = n + 1 ∧
    ∀ i ≤ n, ∃ row, ((rows file' "dynamics").filterMap (dynOf k))[i]? = some row ∧
      TrueRow row (t i - t 0) (fun m => (c 0).flat (u i m - u 0 m)) (fun m => θ i m - θ 0 m) := by
  have hF' : Follows (c 0) n u s θ σ o := by
    refine ⟨hF.cell 0 (by omega), ?_, ?_, hF.sign, hF.orient, hF.stepR⟩
    · intro i hi m
      rcases hin with hc | ⟨hc, -⟩
      · rw [← hc i hi]
        exact hF.image i hi m
      · refine ⟨0, 0, 0, ?_⟩
        rw [hc i hi m]
        unfold Cell.flat Cell.comb
        split <;> simp
    · intro i hi m
      rcases hin with hc | ⟨-, hc⟩
      · rw [← hc i hi.le]
        exact (hF.stepT i hi m).1
      · exact hc i hi m
  obtain ⟨h1, h2⟩ := C91_true_motion hN a vars (c 0) hdim hmol hκ hdef h k rfl hF' hw hk
  exact ⟨h1, fun i hi => by obtain ⟨row, g1, g2, -⟩ := h2 i hi; exact ⟨row, g1, g2⟩⟩

/-- A molecule that walks inside a cell that grows. -/
example : FollowsCells (N := 10) (fun i => bC (4 + i)) 3 (fun i m => if m = 0 then ((i : ℝ) / 2, 0, 0) else 0)
    (fun i m => if m = 0 then ((i : ℝ) / 2, 0, 0) else 0) (fun _ _ => 0) (fun _ _ => 1)
    (fun _ => some (fun _ => (1 : ℝ) • zRot 0)) := by
  have hpi := Real.pi_pos
  have hc : ∀ (j i : ℕ) (m : Fin 10), (bC (4 + j)).WithinHalf ((bC (4 + j)).flat
      ((if m = 0 then (((i + 1 : ℕ) : ℝ) / 2, 0, 0) else 0) -
        (if m = 0 then ((i : ℝ) / 2, 0, 0) else (0 : V3)))) := by
    intro j i m
    have hj : (0 : ℝ) ≤ j := by positivity
    by_cases hm : m = 0
    · refine ⟨1 / 2 / (4 + j), 0, 0, ?_, by simp, by simp, ?_⟩
      · rw [abs_of_nonneg (by positivity), div_lt_iff₀ (by positivity)]
        linarith
      · simp [hm, bC, Cell.flat, Cell.comb]
        field_simp
        ring
    · exact ⟨0, 0, 0, by simp, by simp, by simp, by simp [hm, bC, Cell.flat, Cell.comb]⟩
  refine ⟨?_, fun _ _ => rfl, ?_, fun i _ m => ⟨hc i i m, ?_⟩, fun _ _ => Or.inl rfl, fun _ => rfl, ?_⟩
  · intro i _
    have hj : (0 : ℝ) ≤ i := by positivity
    refine ⟨?_, ?_, by simp [bC]⟩ <;> show 0 < 4 + (i : ℝ) <;> linarith
  · intro i _ m
    exact ⟨0, 0, 0, by simp [bC, Cell.flat, Cell.comb]⟩
  · exact hc (i + 1) i m
  · intro i _ m
    simpa using hpi

end Verif.Pipeline
