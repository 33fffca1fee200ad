import Verif.Pipeline.CommandLammpsProps
import Verif.Pipeline.ChainProps
/-!
# Vocabulary and lemmas for C168
-/

namespace Verif.Pipeline

open Verif.Motion Verif.Dynamics Verif.Relax Verif.Gsd Verif.Process Verif.Cache Verif.Names Verif.Lammps
  Verif.Tables Verif.Text

variable {N : ℕ}

/-- What a lammps trajectory says about its atoms, as a course: they move, but do not turn. -/
noncomputable def textCourse (κ : ℝ) (n : ℕ) (f : ℕ → FrameText ℝ) (jx jy jz : ℕ → ℕ) (u : ℕ → Fin N → V3) :
    Course N :=
  ⟨textCell (f 0), κ, n, fun i => (f i).timestep, fun i => (textCell (f i)).array, u,
    fun i m => written (f i) (jx i) (jy i) (jz i) m, fun _ _ => 0, fun _ _ => 1, fun _ => some fun _ => 1⟩

/-- Without a rotation nobody ever relaxes by turning. -/
theorem not_turned {κ : ℝ} {n : ℕ} {f : ℕ → FrameText ℝ} {jx jy jz : ℕ → ℕ} {u : ℕ → Fin N → V3}
    {τ : String → Fin N → ℤ} (h : TrueTimes (textCourse κ n f jx jy jz u) τ) (m : Fin N) :
    τ "tau_T2" m = 2 ^ 32 - 1 := by
  rcases (h.T2 m).1 with h1 | ⟨i, -, h1, -⟩
  · exact h1
  · simp [Course.turned, textCourse] at h1
    linarith [Real.pi_pos]

/-- The run of `process_file` on a lammps trajectory, as a run on pairs. -/
theorem lammps_pairs (hN : 10 ≤ N) (a : Args) {T P : ℝ} (hdim : a.mol.dimensions = 2) {κ : ℝ} (hκ : 0 < κ)
    (hw : a.wave = some κ) (float : List Char → Option ℝ) (hfloat : ∀ w, float (w ++ ['\n']) = float w)
    (junk : ℝ) {n : ℕ} {f : ℕ → FrameText ℝ} {jx jy jz : ℕ → ℕ} {u : ℕ → Fin N → V3}
    (hrun : LammpsRun float N n f jx jy jz u) (hlater : ∀ i, 1 ≤ i → i ≤ n → (f 0).timestep < (f i).timestep)
    (stepsMax : Option Int) (hin : ∀ i ≤ n, ∀ m, stepsMax = some m → (f i).timestep ≤ m)
    (more : List (FrameText ℝ)) (hmore : ∀ g ∈ more, g.Valid float)
    (hout : ∀ g ∈ more.head?, ∃ m, stepsMax = some m ∧ m < g.timestep) :
    ∃ pairs, (∀ outfile file, processLammps a (.ok (some T, some P)) float junk
        (runText f n ++ more.flatMap FrameText.write) stepsMax outfile file =
          processFile (cenv a T P) (some (pairs, none)) outfile file) ∧
      (∀ k, framesOf k (visitsOf (cenv a T P) pairs) ≠ [] → k = 0) ∧
      framesOf 0 (visitsOf (cenv a T P) pairs) ≠ [] ∧
      (textCourse κ n f jx jy jz u).Of a (framesOf 0 (visitsOf (cenv a T P) pairs)) := by
  have hread := readLammps_text float hfloat hrun.valid stepsMax hin (more.flatMap FrameText.write) (by
    rw [C18_lammps_round_trip float hfloat more hmore]
    intro g hg
    cases more with
    | nil => simp at hg
    | cons g' more =>
      obtain rfl : g'.value = g := by simpa using hg
      exact hout g' (by simp))
  rw [C18_lammps_round_trip float hfloat more hmore] at hread
  simp only [ite_self] at hread
  set F : ℕ → GFrame PData := fun i => textFrame N (f i) (jx i) (jy i) (jz i) with hF
  have hpairs := lammpsPairs_text junk none f jx jy jz (List.range (n + 1)) (float := float) (N := N)
    (fun i hi => by
      have hi : i ≤ n := by have := List.mem_range.1 hi; omega
      exact ⟨hrun.valid i hi, hrun.atoms i hi, hrun.columns i hi⟩)
  have hpos : ∀ i, (F i).data.position.length = N := by intro i; simp [hF, textFrame]
  have hdec : decide (a.mol.dimensions = 2) = true := by simpa using hdim
  have hk : framesOf 0 (visitsOf (cenv a T P) ((List.range (n + 1)).map (fun i => (([0] : List ℕ), F i)))) =
      gframes (fun i => (f i).timestep) (fun i => (textCell (f i)).array)
        (fun i (m : Fin N) => written (f i) (jx i) (jy i) (jz i) m) (fun _ => some fun _ => 1) n := by
    unfold cenv
    rw [framesOf_zero a _ F (List.range (n + 1)) (by
      intro i _ h
      have h := congrArg List.length h
      have := hpos i
      simp only [List.length_nil] at h
      omega)]
    rfl
  refine ⟨(List.range (n + 1)).map (fun i => (([0] : List ℕ), F i)), ?_, ?_, ?_, ?_⟩
  · intro outfile file
    unfold processLammps
    rw [hread]
    simp only []
    rw [hpairs]
  · intro k hne
    by_contra h0
    apply hne
    unfold framesOf
    rw [List.filterMap_eq_nil_iff]
    intro w hw
    simp only [visitsOf, List.mem_flatMap] at hw
    obtain ⟨q, hq, hw⟩ := hw
    obtain ⟨i, -, rfl⟩ := List.mem_map.1 hq
    split at hw
    · simp at hw
    · simp only [List.map_cons, List.map_nil, List.mem_singleton] at hw
      subst hw
      rw [if_neg (by simpa using Ne.symm h0)]
  · rw [hk]; simp [gframes]
  · refine ⟨hdec, hκ, rfl, ?_, by rw [hw]; rfl, hlater, hk⟩
    exact ⟨hrun.box, hrun.image, hrun.step, fun _ _ => Or.inl rfl, fun _ => by simp [textCourse, zRot_zero],
      fun _ _ _ => by simpa [textCourse] using Real.pi_pos⟩

/-! A trajectory of ten atoms that all move. -/

/-- Frame `i`: all atoms have gone `i` to the right. -/
def lMove (i : ℕ) : FrameText ℝ :=
  { lText i with
    cell := fun m j => if j = 0 then (Lammps.showNat (m + 1), (m + 1 : ℕ))
      else if j = 3 then (Lammps.showNat (i % 4), (i % 4 : ℕ)) else (Lammps.showNat 0, (0 : ℕ)) }

/-- True positions. -/
def lMoveU : ℕ → Fin 10 → V3 := fun i _ => ((i : ℕ), 0, 0)

theorem lMove_valid (i : ℕ) : (lMove i).Valid intFloat where
  timestep_word := (lText_valid i).timestep_word
  timestep_int := (lText_valid i).timestep_int
  numAtoms_word := (lText_valid i).numAtoms_word
  numAtoms_int := (lText_valid i).numAtoms_int
  boundsTail := (lText_valid i).boundsTail
  bound_word := (lText_valid i).bound_word
  bound_float := (lText_valid i).bound_float
  bound_tail := (lText_valid i).bound_tail
  heading_word := (lText_valid i).heading_word
  heading_nodup := (lText_valid i).heading_nodup
  heading_id := (lText_valid i).heading_id
  headingsTail := (lText_valid i).headingsTail
  cell_word := by
    intro m j
    simp only [lMove]
    split
    · exact showNat_word _
    · split <;> exact showNat_word _
  cell_float := by
    intro m j
    simp only [lMove]
    split
    · exact intFloat_showNat _
    · split <;> exact intFloat_showNat _
  cell_id := by
    intro m j h
    have h' : lHeads[j]? = some "id".toList := h
    have hj : j = 0 := by
      match j, h' with
      | 0, _ => rfl
      | 1, h => exact absurd h (by decide)
      | 2, h => exact absurd h (by decide)
      | 3, h => exact absurd h (by decide)
      | j + 4, h => exact absurd h (by simp [lHeads])
    subst hj
    have := pyInt_showNat (m + 1)
    push_cast at this
    exact this
  extra_piece := (lText_valid i).extra_piece
  order_perm := (lText_valid i).order_perm

theorem lMove_run (n : ℕ) : LammpsRun intFloat 10 n lMove (fun _ => 3) (fun _ => 2) (fun _ => 1) lMoveU where
  valid i _ := lMove_valid i
  atoms _ _ := rfl
  columns _ _ := ⟨rfl, rfl, rfl⟩
  box := (l_run 0).box
  image := by
    intro i _ m
    have hi : (i : ℝ) = 4 * (i / 4 : ℕ) + (i % 4 : ℕ) := by exact_mod_cast (Nat.div_add_mod i 4).symm
    generalize i / 4 = q at hi
    refine ⟨-(q : ℤ), 0, 0, ?_⟩
    simp only [textCell, lMove, lText, written, lMoveU, Cell.flat, Cell.comb, if_true]
    simp only [show (3 : ℕ) ≠ 0 by decide, if_false]
    ext
    · simp
      rw [hi]
      ring
    · simp
    · simp
  step := by
    intro i _ m
    refine ⟨1 / 4, 0, 0, by rw [abs_lt]; constructor <;> norm_num, by simp, by simp, ?_⟩
    simp [textCell, lMove, lText, lMoveU, Cell.flat, Cell.comb]

end Verif.Pipeline
