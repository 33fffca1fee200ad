import Verif.Process.CrashProps
import Verif.Pipeline.LammpsExample
/-!
# Properties C106, C107: `process_file` on lammps trajectories
-/

namespace Verif.Pipeline

open Verif.Motion Verif.Dynamics Verif.Relax Verif.Gsd Verif.Process Verif.Cache Verif.Lammps

variable {ν : Type} {N : ℕ}

/-- **C106.** The text of a lammps trajectory, whatever the order of lines and columns in each frame,
followed by frames beyond `steps_max` if there are any: `process_file` returns, and the table of dynamics
has one row per frame, with the times since the first frame and the averages of the true
displacements; the rotations are zero. -/
theorem C106_lammps (hN : 10 ≤ N) (a : Args) (v : ν) (hdim : a.mol.dimensions = 2)
    (hmol : a.mol.positions ≠ []) (hdef : a.relaxations = none) {κ : ℝ} (hκ : 0 < κ)
    (hw : a.wave = some κ) (float : List Char → Option ℝ) (hfloat : ∀ w, float (w ++ ['\n']) = float w)
    (junk : ℝ) {n : ℕ} {f : ℕ → FrameText ℝ} {jx jy jz : ℕ → ℕ} {u : ℕ → Fin N → V3}
    (hrun : LammpsRun float N n f jx jy jz u) (stepsMax : Option Int)
    (hin : ∀ i ≤ n, ∀ m, stepsMax = some m → (f i).timestep ≤ m) (more : List (FrameText ℝ))
    (hmore : ∀ g ∈ more, g.Valid float)
    (hout : ∀ g ∈ more.head?, ∃ m, stepsMax = some m ∧ m < g.timestep)
    (file : File (Rec ℕ (Dict Quantity Val) (Dict String ℤ) ν)) :
    ∃ file', processLammps a (.ok v) float junk (runText f n ++ more.flatMap FrameText.write) stepsMax
        true file = (file', .ok none) ∧
      ((rows file' "dynamics").filterMap (dynOf 0)).length = n + 1 ∧
      ∀ i ≤ n, ∃ row, ((rows file' "dynamics").filterMap (dynOf 0))[i]? = some row ∧
        TrueRow row ((f i).timestep - (f 0).timestep)
          (fun m => ((u i m - u 0 m).1, (u i m - u 0 m).2.1, 0)) (fun _ => 0) := by
  have hread := readLammps_text float hfloat hrun.valid stepsMax hin (more.flatMap FrameText.write) (by
    rw [C18_lammps_round_trip float hfloat more hmore]
    intro g hg
    cases more with
    | nil => simp at hg
    | cons g' more =>
      obtain rfl : g'.value = g := by simpa using hg
      exact hout g' (by simp))
  rw [C18_lammps_round_trip float hfloat more hmore] at hread
  simp only [ite_self] at hread
  set T : ℕ → GFrame PData := fun i => textFrame N (f i) (jx i) (jy i) (jz i) with hT
  have hpairs := lammpsPairs_text junk none f jx jy jz (List.range (n + 1)) (float := float) (N := N)
    (fun i hi => by
      have hi : i ≤ n := by have := List.mem_range.1 hi; omega
      exact ⟨hrun.valid i hi, hrun.atoms i hi, hrun.columns i hi⟩)
  have hpos : ∀ i, (T i).data.position.length = N := by intro i; simp [hT, textFrame]
  have hdec : decide (a.mol.dimensions = 2) = true := by simpa using hdim
  obtain ⟨file', hfile⟩ := C91_returns a v hmol (by simp [hdef]) (by rw [hw]; simpa using hκ.ne')
    ((List.range (n + 1)).map (fun i => (([0] : List ℕ), T i))) file (by
      intro p hp _
      obtain ⟨i, -, rfl⟩ := List.mem_map.1 hp
      refine ⟨by rw [hpos]; exact hN, ?_, (textCell (f i)).box, κ, ?_, by rw [hw]; rfl, hκ⟩
      · intro h
        have h2 : List.ofFn (fun _ : Fin N => (1 : Quat)) = [] := Option.some.inj h
        have := congrArg List.length h2
        simp at this
        omega
      · rw [hdec]
        exact createFreudBox_cell (textCell (f i)))
    ⟨([0], T 0), List.mem_map.2 ⟨0, by simp, rfl⟩, by
      intro h
      have h := congrArg List.length h
      have := hpos 0
      simp only [List.length_nil] at h
      omega, by simp⟩
  have hproc : processLammps a (.ok v) float junk (runText f n ++ more.flatMap FrameText.write) stepsMax
      true file = (file', .ok none) := by
    unfold processLammps
    rw [hread]
    simp only []
    rw [hpairs]
    exact hfile
  refine ⟨file', hproc, ?_⟩
  have hk : framesOf 0 (visitsOf (env a (.ok v)) ((List.range (n + 1)).map (fun i => (([0] : List ℕ), T i)))) =
      gframes (fun i => (f i).timestep) (fun i => (textCell (f i)).array)
        (fun i (m : Fin N) => written (f i) (jx i) (jy i) (jz i) m) (fun _ => some fun _ => 1) n := by
    rw [framesOf_zero a (.ok v) T (List.range (n + 1)) (by
      intro i _ h
      have h := congrArg List.length h
      have := hpos i
      simp only [List.length_nil] at h
      omega)]
    rfl
  have hF : Follows (textCell (f 0)) n u (fun i (m : Fin N) => written (f i) (jx i) (jy i) (jz i) m)
      (fun _ _ => 0) (fun _ _ => 1) (fun _ => some fun _ => 1) :=
    ⟨hrun.box, hrun.image, hrun.step, fun _ _ => Or.inl rfl, fun _ => by simp [zRot_zero],
      fun _ _ _ => by simpa using Real.pi_pos⟩
  obtain ⟨h1, h2⟩ := C91_true_motion hN a (.ok v) (textCell (f 0)) hdec hmol hκ hdef hfile 0 rfl hF
    (by rw [hw]; rfl) hk
  refine ⟨h1, ?_⟩
  intro i hi
  obtain ⟨row, hr, ht, -⟩ := h2 i hi
  refine ⟨row, hr, ?_⟩
  simpa [Cell.flat, textCell] using ht

/-- The hypotheses hold for a walk of six frames out of the cell, with a frame beyond the maximum; the
positions are not written as they are. -/
example : LammpsRun intFloat 10 5 lText (fun _ => 3) (fun _ => 2) (fun _ => 1) lU ∧
    (∀ i ≤ 5, ∀ m, some (16 : Int) = some m → (lText i).timestep ≤ m) ∧
    (∃ m, some (16 : Int) = some m ∧ m < (lText 6).timestep) ∧ (lText 6).Valid intFloat ∧
    written (lText 5) 3 2 1 0 = (1, 0, 0) ∧ lU 5 0 = (5, 0, 0) ∧ tA.mol.dimensions = 2 ∧
    tA.wave = some 2 := by
  refine ⟨l_run 5, ?_, ⟨16, rfl, by simp [lText]⟩, lText_valid 6, ?_, ?_, rfl, rfl⟩
  · intro i hi m hm
    obtain rfl := Option.some.inj hm
    simp only [lText]
    omega
  · simp [written, lText]
  · simp [lU]

/-- A trajectory whose first frame has no column `x`, `y` or `z` (a dump of `id x y`, or of scaled
positions `xs ys zs`) is a KeyError and nothing is written, whatever follows. -/
theorem C106_missing_column (a : Args) (vars : Except PyErr ν) (float : List Char → Option ℝ)
    (hfloat : ∀ w, float (w ++ ['\n']) = float w) (junk : ℝ) (f : FrameText ℝ) (hv : f.Valid float)
    (name : String) (hname : name = "x" ∨ name = "y" ∨ name = "z") (hno : name.toList ∉ f.headings)
    (tail : List Char) (stepsMax : Option Int) (hin : ∀ m, stepsMax = some m → f.timestep ≤ m)
    (outfile : Bool) (file : File (Rec ℕ (Dict Quantity Val) (Dict String ℤ) ν)) :
    processLammps a vars float junk (f.write ++ tail) stepsMax outfile file = (file, .error .keyError) := by
  have hp := parseLammps_append float hfloat tail [f] (by simpa using hv)
  simp only [List.flatMap_cons, List.flatMap_nil, List.append_nil, List.map_cons, List.map_nil,
    List.cons_append, List.nil_append] at hp
  have hstep : stepsMax.any (fun m => decide (f.value.timestep > m)) = false := by
    cases hs : stepsMax with
    | none => rfl
    | some m =>
      have := hin m hs
      simpa [FrameText.value] using this
  have hcol : Frame.column junk f.value name = .error .keyError := by
    have : Dict.get? f.value.cols name.toList = none := by
      cases hg : Dict.get? f.value.cols name.toList with
      | none => rfl
      | some c =>
        have := List.mem_map_of_mem (f := Prod.fst) (Dict.mem_of_get? _ _ _ hg)
        rw [value_keys] at this
        exact absurd this hno
    simp only [Frame.column, this]
  have hkey : ∀ n e, Frame.column junk f.value n = .error e → e = .keyError := by
    intro n e h
    unfold Frame.column at h
    split at h <;> simp_all
  have hfr : Frame.lammpsFrame junk f.value = .error .keyError := by
    unfold Frame.lammpsFrame
    cases hx : Frame.column junk f.value "x" with
    | error e => rw [hkey _ e hx]
    | ok x =>
      cases hy : Frame.column junk f.value "y" with
      | error e => simp only [hkey _ e hy]
      | ok y =>
        cases hz : Frame.column junk f.value "z" with
        | error e => simp only [hkey _ e hz]
        | ok z =>
          rcases hname with rfl | rfl | rfl
          · rw [hcol] at hx; cases hx
          · rw [hcol] at hy; cases hy
          · rw [hcol] at hz; cases hz
  unfold processLammps readLammps
  rw [hp]
  simp only [readLoop, hstep, lammpsPairs, hfr, processFile, frameLoop, Bool.false_eq_true, if_false]

/-- The same frame as above without the column `z`: the heading is something else. -/
example : ∃ f : FrameText ℝ, f.Valid intFloat ∧ "z".toList ∉ f.headings ∧ f.numAtoms = 10 :=
  ⟨{ lText 0 with headings := ["id".toList, "y".toList, "x".toList] },
    { lText_valid 0 with
      heading_word := by
        intro h hh
        simp only [List.mem_cons, List.not_mem_nil, or_false] at hh
        rcases hh with rfl | rfl | rfl <;> exact ⟨by decide, by decide⟩
      heading_nodup := (by decide : (["id".toList, "y".toList, "x".toList] : List (List Char)).Nodup)
      heading_id := (by decide : "id".toList ∈ ["id".toList, "y".toList, "x".toList])
      cell_id := by
        intro m j h
        have h' : (["id".toList, "y".toList, "x".toList] : List (List Char))[j]? = some "id".toList := h
        have hj : j = 0 := by
          match j, h' with
          | 0, _ => rfl
          | 1, h => exact absurd h (by decide)
          | 2, h => exact absurd h (by decide)
          | j + 3, h => exact absurd h (by simp)
        subst hj
        have := pyInt_showNat (m + 1)
        push_cast at this
        exact this }, (by decide : "z".toList ∉ ["id".toList, "y".toList, "x".toList]), rfl⟩

/-! ## C107 -/

theorem lammpsPairs_ending (junk : ℝ) (e : Option PyErr) : ∀ (ps : List (List ℕ × LFrame ℝ)),
    (lammpsPairs junk none ps).2 = none →
    lammpsPairs junk e ps = ((lammpsPairs junk none ps).1, e)
  | [], _ => rfl
  | p :: ps, h => by
    cases hv : Frame.lammpsFrame junk p.2 with
    | error err => simp [lammpsPairs, hv] at h
    | ok v =>
      simp only [lammpsPairs, hv] at h ⊢
      rw [lammpsPairs_ending junk e ps h]

/-- The full property: what is written for the frames before a damaged place is what is written when the
file ends there. -/
def DamageKeeps : Prop :=
  ∀ (a : Args) (float : List Char → Option ℝ) (junk : ℝ) (n : ℕ) (f : ℕ → FrameText ℝ)
    (file0 : File (Rec ℕ (Dict Quantity Val) (Dict String ℤ) Unit))
    (out : Option (List (Rec ℕ (Dict Quantity Val) (Dict String ℤ) Unit))) (tail l : List Char),
    (∀ w, float (w ++ ['\n']) = float w) → (∀ i ≤ n, (f i).Valid float) →
    FirstLine tail l → l ≠ [] → l ≠ "ITEM: TIMESTEP\n".toList →
    processLammps a (.ok ()) float junk (runText f n) none true [] = (file0, .ok out) →
    rows (processLammps a (.ok ()) float junk (runText f n ++ tail) none true []).1 "dynamics" =
      rows file0 "dynamics"

/-- **C107.** A lammps trajectory that is damaged after the frames `0`, …, `n`: `process_file` raises
RuntimeError, and the output has only the rows of full caches.  In particular nothing at all is written
for up to 8192 frames. -/
theorem C107_damage_partial (a : Args) (vars : Except PyErr ν) (float : List Char → Option ℝ)
    (hfloat : ∀ w, float (w ++ ['\n']) = float w) (junk : ℝ) {n : ℕ} {f : ℕ → FrameText ℝ}
    (hv : ∀ i ≤ n, (f i).Valid float) (stepsMax : Option Int)
    (hin : ∀ i ≤ n, ∀ m, stepsMax = some m → (f i).timestep ≤ m) {tail l : List Char}
    (hl : FirstLine tail l) (hl0 : l ≠ []) (hl1 : l ≠ "ITEM: TIMESTEP\n".toList)
    {file0 : File (Rec ℕ (Dict Quantity Val) (Dict String ℤ) ν)}
    {out : Option (List (Rec ℕ (Dict Quantity Val) (Dict String ℤ) ν))}
    (h : processLammps a vars float junk (runText f n) stepsMax true [] = (file0, .ok out))
    (file : File (Rec ℕ (Dict Quantity Val) (Dict String ℤ) ν)) :
    ∃ file', processLammps a vars float junk (runText f n ++ tail) stepsMax true file =
        (file', .error .runtimeError) ∧
      ((rows file0 "dynamics").length ≤ 8192 → file' = file) ∧
      (8192 < (rows file0 "dynamics").length → rows file' "dynamics" =
        (rows file0 "dynamics").take (8192 * (((rows file0 "dynamics").length - 1) / 8192))) ∧
      ∀ g, g ≠ "dynamics" → Dict.get? file' g = Dict.get? file g := by
  have hp0 : parseLammps float [] = ([], none) := C18_lammps_round_trip float hfloat [] (by simp)
  have hp1 : parseLammps float tail = ([], some .runtimeError) :=
    (C19_malformed_header float hfloat [] (by simp) (f 0) (hv 0 (Nat.zero_le n)) tail l hl).1 hl0 hl1
  have r0 := readLammps_text float hfloat hv stepsMax hin [] (by rw [hp0]; simp)
  have r1 := readLammps_text float hfloat hv stepsMax hin tail (by rw [hp1]; simp)
  rw [hp0, List.append_nil] at r0
  rw [hp1] at r1
  simp only [if_true] at r0 r1
  unfold processLammps at h ⊢
  rw [r0] at h
  rw [r1]
  simp only [] at h ⊢
  set ps := (List.range (n + 1)).map (fun i => (([0] : List ℕ), (f i).value)) with hps
  have hnone : (lammpsPairs junk none ps).2 = none :=
    (processFile_ok (env a vars) (lammpsPairs junk none ps).1 (lammpsPairs junk none ps).2 [] file0 out h).1
  rw [lammpsPairs_ending junk (some .runtimeError) ps hnone]
  rw [lammpsPairs_ending junk none ps hnone] at h
  exact C107_reader_raises (env a vars) _ .runtimeError file file0 out h

theorem garbage_first : FirstLine "garbage\nmore".toList "garbage\n".toList :=
  ⟨"garbage".toList, by decide, Or.inl ⟨"more".toList, rfl, rfl⟩⟩

/-- The hypotheses hold for six frames and a line of garbage. -/
theorem l_rows : ∃ file0, processLammps tA (.ok ()) intFloat 0 (runText lText 5) none true [] =
      (file0, .ok none) ∧ rows file0 "dynamics" ≠ [] := by
  obtain ⟨file0, h1, h2, -⟩ := C106_lammps (by norm_num) tA () rfl (by simp [tA, exMol]) rfl
    (κ := 2) (by norm_num) rfl intFloat intFloat_nl 0 (l_run 5) none (by simp) [] (by simp) (by simp) []
  rw [List.flatMap_nil, List.append_nil] at h1
  refine ⟨file0, h1, ?_⟩
  intro h0
  rw [h0] at h2
  simp at h2

theorem C107_damage_refuted : ¬ DamageKeeps := by
  intro h
  obtain ⟨file0, h1, h2⟩ := l_rows
  obtain ⟨file', h4, h5, h6, -⟩ := C107_damage_partial tA (.ok ()) intFloat intFloat_nl 0
    (fun i _ => lText_valid i) none (by simp) garbage_first (by decide) (by decide) h1 []
  have := h tA intFloat 0 5 lText file0 none _ _ intFloat_nl (fun i _ => lText_valid i) garbage_first
    (by decide) (by decide) h1
  rw [h4] at this
  simp only [] at this
  have hpos : 0 < (rows file0 "dynamics").length := List.length_pos_iff.2 h2
  rcases Nat.lt_or_ge 8192 (rows file0 "dynamics").length with hlt | hge
  · rw [h6 hlt] at this
    have := congrArg List.length this
    simp only [List.length_take] at this
    omega
  · rw [h5 hge] at this
    exact h2 this.symm

end Verif.Pipeline
