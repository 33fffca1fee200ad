import Verif.Pipeline.Example
/-!
# Properties of the whole of `process_file`, C91-C94
-/

namespace Verif.Pipeline

open Verif.Motion Verif.Dynamics Verif.Relax Verif.Gsd Verif.Process Verif.Cache

variable {N : ℕ} {ν ι : Type} [DecidableEq ι]

/-! ## C91 -/

open Classical in
/-- **C91.**  A run of `process_file` that returned has stored, for every keyframe whose frames are the
frames `0`, …, `n` of a trajectory in which molecules move less than half the cell and turn less than
half a turn from frame to frame, exactly `n + 1` rows, and row `i` gives the averages for the true motion
since frame 0, with the proportion of molecules within a quarter of the wave length and the scattering
function when these are asked for. -/
theorem C91_true_motion (hN : 10 ≤ N) (a : Args) (vars : Except PyErr ν) (c : Cell)
    (hdim : decide (a.mol.dimensions = 2) = c.is2D) (hmol : a.mol.positions ≠ []) {κ : ℝ} (hκ : 0 < κ)
    (hdef : a.relaxations = none) {pairs : List (List ι × GFrame PData)} {ending : Option PyErr}
    {file file' : File (Rec ι (Dict Quantity Val) (Dict String ℤ) ν)}
    {out : Option (List (Rec ι (Dict Quantity Val) (Dict String ℤ) ν))}
    (h : processFile (env a vars) (some (pairs, ending)) true file = (file', .ok out)) (k : ι)
    {n : ℕ} {t : ℕ → ℤ} {box : ℕ → List ℝ} {u s : ℕ → Fin N → V3} {θ σ : ℕ → Fin N → ℝ}
    {o : ℕ → Option (Fin N → Quat)} (hbox : box 0 = c.array) (hF : Follows c n u s θ σ o)
    (hw : waveOf a.calcWave c.box (List.ofFn (s 0)) a.wave = .ok κ)
    (hk : framesOf k (visitsOf (env a vars) pairs) = gframes t box s o n) :
    ((rows file' "dynamics").filterMap (dynOf k)).length = n + 1 ∧
    ∀ i ≤ n, ∃ row, ((rows file' "dynamics").filterMap (dynOf k))[i]? = some row ∧
      TrueRow row (t i - t 0) (fun m => c.flat (u i m - u 0 m)) (fun m => θ i m - θ 0 m) ∧
      (∀ κ', a.wave = some κ' →
        Reports row .com_struct (((Finset.univ.filter (fun m =>
          len (c.flat (u i m - u 0 m)) < Real.pi / (2 * κ'))).card : ℝ) / N) ∧
        (a.scattering = true → Reports row .scattering_function (avg (fun j : Fin 360 =>
          avg (fun m => Real.cos (κ' * (Real.cos (2 * Real.pi * j / 360) *
            (c.flat (u i m - u 0 m)).1 + Real.sin (2 * Real.pi * j / 360) *
            (c.flat (u i m - u 0 m)).2.1))))))) := by
  have hb : createFreudBox (box 0) (is2d (some a.mol)) = .ok c.box := by
    rw [hbox, show is2d (some a.mol) = c.is2D from hdim]
    exact createFreudBox_cell c
  obtain ⟨row, h1, -, h3⟩ := keyframe_rows hN hb hF.unit hw hκ hdef hmol h hk
  rw [h1]
  refine ⟨by simp, ?_⟩
  intro i hi
  refine ⟨row i, by rw [List.getElem?_map, List.getElem?_range (by omega)]; rfl, ?_⟩
  have hH := held_follows hF hi
  have hrow : rowAt a.argsort c.array (some a.mol) a.wave 360 (t 0) (frame (held s) (held o) 0)
      (frames (held s) (held o) 1 (i + 1)) (t i) (frame (held s) (held o) (i + 1)) a.scattering =
      .ok (row i) := by
    rw [rowAt_eq (by omega) a.argsort (by rw [← hbox]; exact hb) a.wave 360 (t 0) (t i) (held s)
      (held o) (held_unit hF.unit) i a.scattering]
    exact h3 i
  obtain ⟨g1, g2, g3, g4, g5, g6, g7, g8, g9⟩ := C79_true_motion (by omega) a.argsort c (some a.mol)
    hdim a.wave 360 (t 0) (t i) a.scattering hH hrow
  refine ⟨⟨g1, g2, g3, g4, g5, g6, g7, g8⟩, fun κ' hκ' => ⟨g9 κ' hκ', fun hsc => ?_⟩⟩
  obtain ⟨x, e1, e2, -⟩ := scattering_held (by omega) hb hF.unit hκ' hsc (h3 i)
    (fun m => c.flat (u i m - u 0 m)) (hH.sums (by omega)).1
  rw [← e2]
  exact e1

/-- The hypotheses of `C91_true_motion`: a run on six frames with two keyframes, in which a molecule
walks out of the cell. -/
example : ∃ file', processFile (env tA (.ok ())) (some (tPairs, none)) true [] = (file', .ok none) ∧
    framesOf 0 (visitsOf (env tA (.ok ())) tPairs) = gframes tT (fun _ => tC.array) tS tO 5 ∧
    Follows tC 5 tU tS tθ tσ tO ∧ tS 5 0 ≠ tU 5 0 ∧
    waveOf tA.calcWave tC.box (List.ofFn (tS 0)) tA.wave = .ok 2 := by
  obtain ⟨file', h⟩ := t_returns
  exact ⟨file', h, t_frames, t_follows 5, by simp [tS, tU], rfl⟩

/-- **C91, the run returns.**  Whatever the frames hold (other numbers of molecules than before,
orientations that are missing or not normalised), the run returns if every frame that has molecules has at
least ten of them, a box, and a wave number. -/
theorem C91_returns (a : Args) (v : ν) (hmol : a.mol.positions ≠ [])
    (hdef : ∀ defs, a.relaxations = some defs → ∀ n, (setMolRelax n [] defs).2 = none)
    (hw : a.wave ≠ some 0) (pairs : List (List ι × GFrame PData))
    (file : File (Rec ι (Dict Quantity Val) (Dict String ℤ) ν))
    (hframes : ∀ p ∈ pairs, p.2.data.position ≠ [] → 10 ≤ p.2.data.position.length ∧
      p.2.data.orientation ≠ some [] ∧
      ∃ b κ, createFreudBox p.2.data.box (decide (a.mol.dimensions = 2)) = .ok b ∧
        waveOf a.calcWave b p.2.data.position a.wave = .ok κ ∧ 0 < κ)
    (hne : ∃ p ∈ pairs, p.2.data.position ≠ [] ∧ p.1 ≠ []) :
    ∃ file', processFile (env a (.ok v)) (some (pairs, none)) true file = (file', .ok none) := by
  have hk := env_keeps a v hmol hdef hw
  have hpos : ∀ f : GFrame PData, (env a (.ok v)).numPos f = 0 ↔ f.data.position = [] := by
    intro f; exact List.length_eq_zero_iff
  have hvis : ∀ w ∈ visitsOf (env a (.ok v)) pairs, Usable a w.2 := by
    intro w hv
    simp only [visitsOf, List.mem_flatMap] at hv
    obtain ⟨p, hp, hv⟩ := hv
    split at hv
    · simp at hv
    · rename_i h0
      obtain ⟨k, _, rfl⟩ := List.mem_map.1 hv
      exact hframes p hp (fun h1 => h0 ((hpos _).2 h1))
  have hnil : visitsOf (env a (.ok v)) pairs ≠ [] := by
    obtain ⟨p, hp, h1, h2⟩ := hne
    obtain ⟨k, ks, hks⟩ := List.exists_cons_of_ne_nil h2
    intro h0
    have : (k, p.2) ∈ visitsOf (env a (.ok v)) pairs := by
      simp only [visitsOf, List.mem_flatMap]
      refine ⟨p, hp, ?_⟩
      rw [if_neg (fun h => h1 ((hpos _).1 h)), hks]
      simp
    rw [h0] at this
    simp at this
  obtain ⟨h1, h2⟩ := keeps_core _ hk _ [] (by simp [Dict.get?]) hvis
  exact processFile_returns _ _ _ v h1 rfl (h2 (Or.inr hnil))

/-! ## C92 -/

open Classical in
/-- **C92.**  The first row of every keyframe is that of a system at rest: time 0, no displacement and no
rotation, the correlations 1, and NaN for the ratios of moments. -/
theorem C92_first_row (hN : 10 ≤ N) (a : Args) (hs : Sorts a.argsort) (vars : Except PyErr ν) {b : Box}
    (hmol : a.mol.positions ≠ []) {κ : ℝ} (hκ : 0 < κ) (hw : a.wave = some κ)
    (hdef : a.relaxations = none) {pairs : List (List ι × GFrame PData)} {ending : Option PyErr}
    {file file' : File (Rec ι (Dict Quantity Val) (Dict String ℤ) ν)}
    {out : Option (List (Rec ι (Dict Quantity Val) (Dict String ℤ) ν))}
    (h : processFile (env a vars) (some (pairs, ending)) true file = (file', .ok out)) (k : ι)
    {n : ℕ} {t : ℕ → ℤ} {box : ℕ → List ℝ} {s : ℕ → Fin N → V3} {o : ℕ → Option (Fin N → Quat)}
    (hb : createFreudBox (box 0) (decide (a.mol.dimensions = 2)) = .ok b) (ho : Motion.Unit o)
    (hk : framesOf k (visitsOf (env a vars) pairs) = gframes t box s o n) :
    ∃ row, ((rows file' "dynamics").filterMap (dynOf k)).head? = some row ∧
      Dict.get? row .time = some (.int 0) ∧
      (∀ q ∈ [Quantity.mean_displacement, .msd, .mfd, .mean_rotation, .msr], Reports row q 0) ∧
      (∀ q ∈ [Quantity.com_struct, .rot1, .rot2, .overlap], Reports row q 1) ∧
      (∀ q ∈ [Quantity.alpha, .alpha_rot, .gamma], ReportsNaN row q) ∧
      (a.scattering = true → Reports row .scattering_function 1) ∧
      (o 0 ≠ none → Reports row .struct 1) ∧ (o 0 = none → ReportsNaN row .struct) := by
  obtain ⟨row, h1, -, h3⟩ := keyframe_rows hN hb ho (by unfold WaveIs; rw [hw]; rfl) hκ hdef hmol h hk
  refine ⟨row 0, by rw [h1]; simp [List.range_succ_eq_map], ?_⟩
  have h0 := h3 0
  have hall := computeAll_held ho b h0
  have zT := sumT_first b s
  have zR := sumR_first ho
  have hN0 : 0 < N := by omega
  have hd : (dynAfter b (some a.mol) a.wave 360 (t 0) (held s) (held o) 1).motion.deltaT =
      List.ofFn (fun _ : Fin N => (0 : V3)) := by rw [← zT]; rfl
  have hr : (dynAfter b (some a.mol) a.wave 360 (t 0) (held s) (held o) 1).motion.deltaR =
      List.ofFn (fun _ : Fin N => (0 : V3)) := by rw [← zR]; rfl
  obtain ⟨md, msd, mfd, mr, msr, m1, m2, m3, m4, m5, -, -, -, -, -, -, -, -, -, -, -, z1, z2⟩ :=
    C33_moments hall hN0 _ _ hd hr
  obtain ⟨rfl, rfl, rfl⟩ := z1 fun _ => rfl
  obtain ⟨rfl, rfl⟩ := z2 fun _ => rfl
  obtain ⟨x1, x2, r1, r2, -, -, -, -, -, -, z3⟩ := C35_rotational hall hN0 _ hr
  obtain ⟨rfl, rfl⟩ := z3 fun _ => rfl
  have hal := (C34_alpha hall hN0 _ hd).1 fun _ => rfl
  have har := (C34_alpha_rot hall hN0 _ hr).1 fun _ => rfl
  have hga : ReportsNaN (row 0) .gamma := (C34_gamma hall _ _ hd hr).1 (Or.inl fun _ => rfl)
  have hl0 : len 0 = 0 := by simp [len, len2]
  have hdist : 0 < Real.pi / (2 * κ) := by have := Real.pi_pos; positivity
  have hcom := C36_com_struct hall (k := κ) (by rw [← hw]; rfl) _ hd
  have hcard : ((Finset.univ.filter (fun _ : Fin N => len 0 < Real.pi / (2 * κ))).card : ℝ) / N = 1 := by
    rw [hl0, Finset.filter_true_of_mem (fun _ _ => hdist), Finset.card_univ, Fintype.card_fin,
      div_self (by exact_mod_cast hN0.ne')]
  rw [hcard] at hcom
  obtain ⟨al, isf, distance, ar, ga, ov, st, -, -, hdis, -, -, hov, hst, hrow⟩ := quantities_ok h0
  -- the overlap: both orders are the same
  have hov1 : ov = 1 := by
    have e1 : (dynAfter b (some a.mol) a.wave 360 (t 0) (held s) (held o) 1).displacement =
        List.replicate N 0 := by
      unfold Dyn.displacement
      rw [hd, map_ofFn', ← replicate_eq_ofFn]
      simp [norm3]
    have e2 : (dynAfter b (some a.mol) a.wave 360 (t 0) (held s) (held o) 1).rotation =
        List.replicate N 0 := by
      unfold Dyn.rotation
      rw [hr, map_ofFn', ← replicate_eq_ofFn]
      simp [norm3]
    rw [e1, e2, mobileOverlap_eq _ hs] at hov
    have hk1 := one_le_num (n := N) hN
    simp only [List.length_replicate, List.map_replicate, abs_zero, Finset.inter_self] at hov
    rw [if_neg hk1.ne'] at hov
    obtain rfl := Except.ok.inj hov
    have hnd : (lastN (a.argsort (List.replicate N 0)) ⌊(N : ℚ) * (1 / 10)⌋₊).Nodup := by
      unfold lastN
      split
      · exact hs.nodup _
      · exact (hs.nodup _).sublist (List.drop_sublist _ _)
    have hle : ⌊(N : ℚ) * (1 / 10)⌋₊ ≤ N := by
      have e1 : ((⌊(N : ℚ) * (1 / 10)⌋₊ : ℕ) : ℚ) ≤ (N : ℚ) * (1 / 10) :=
        Nat.floor_le (by positivity)
      have e2 : (0 : ℚ) ≤ N := Nat.cast_nonneg _
      have : ((⌊(N : ℚ) * (1 / 10)⌋₊ : ℕ) : ℚ) ≤ N := by linarith
      exact_mod_cast this
    rw [List.toFinset_card_of_nodup hnd, lastN_length hk1 (by
      rw [hs.length, List.length_replicate]; exact hle)]
    exact div_self (by exact_mod_cast hk1.ne')
  -- nothing has moved
  have hst1 : (o 0 ≠ none → st = some 1) ∧ (o 0 = none → st = none) := by
    have hK : 0 < a.mol.positions.length := List.length_pos_iff.2 hmol
    have hdis' : (dynAfter b (some a.mol) a.wave 360 (t 0) (held s) (held o) 1).distance =
        .ok (some (Real.pi / (2 * κ))) := by
      unfold Dyn.distance
      simp [dynAfter, hw, hκ.ne']
    rw [hdis'] at hdis
    obtain rfl := Except.ok.inj hdis
    have := structRelax_ofFn hK hN0 (dynAfter b (some a.mol) a.wave 360 (t 0) (held s) (held o) 1)
      _ _ hd hr a.mol.positions.get (by simp [dynAfter]) rfl _ hdis'
    have q1 : structQuat (0 : V3) = 1 := by
      have hz : qz 0 = 1 := by
        simp only [qz, zero_div, Real.cos_zero, Real.sin_zero]; rfl
      have hy : qy 0 = 1 := by
        simp only [qy, zero_div, Real.cos_zero, Real.sin_zero]; rfl
      have hx : qx 0 = 1 := by
        simp only [qx, zero_div, Real.cos_zero, Real.sin_zero]; rfl
      show qz 0 * qy 0 * qx 0 = 1
      rw [hz, hy, hx, one_mul, one_mul]
    have hall' : ((Finset.univ.filter (fun n : Fin (a.mol.positions.length * N) =>
      len (turned (structQuat 0) (a.mol.positions.get n.divNat) + 0 - a.mol.positions.get n.divNat) <
        Real.pi / (2 * κ))).card : ℝ) / (a.mol.positions.length * N) = 1 := by
      rw [q1]
      simp only [turned_one, add_zero, sub_self, hl0]
      rw [Finset.filter_true_of_mem (fun _ _ => hdist), Finset.card_univ, Fintype.card_fin]
      push_cast
      exact div_self (by positivity)
    rw [hall'] at this
    unfold structVal at hst
    constructor
    · intro h2
      obtain ⟨q, hq⟩ := Option.ne_none_iff_exists'.1 h2
      have hp : (dynAfter b (some a.mol) a.wave 360 (t 0) (held s) (held o) 1).motion.prevOri.isSome =
          true := by simp [dynAfter, held, hq]
      have hm : (dynAfter b (some a.mol) a.wave 360 (t 0) (held s) (held o) 1).molVector.isSome =
          true := rfl
      rw [zero_add, hp, hm, this] at hst
      simpa [Except.map] using hst.symm
    · intro h2
      have hp : (dynAfter b (some a.mol) a.wave 360 (t 0) (held s) (held o) 1).motion.prevOri.isSome =
          false := by simp [dynAfter, held, h2]
      rw [zero_add, hp] at hst
      simpa using hst.symm
  have hover : Reports (row 0) .overlap 1 := by rw [hrow, hov1]; rfl
  refine ⟨?_, ?_, ?_, ?_, ?_, fun h2 => by rw [hrow, hst1.1 h2]; rfl,
    fun h2 => by rw [hrow, hst1.2 h2]; rfl⟩
  · rw [(C38_keys hall).2]
    simp [dynAfter]
  · simp only [List.mem_cons, List.not_mem_nil, or_false]
    rintro q (rfl | rfl | rfl | rfl | rfl) <;> assumption
  · simp only [List.mem_cons, List.not_mem_nil, or_false]
    rintro q (rfl | rfl | rfl | rfl) <;> assumption
  · simp only [List.mem_cons, List.not_mem_nil, or_false]
    rintro q (rfl | rfl | rfl) <;> assumption
  · intro hsc
    obtain ⟨x, e1, -, e2⟩ := scattering_held hN0 hb ho hw hsc h0 (fun _ => 0) zT
    rw [← e2 fun _ => rfl]
    exact e1

/-- The hypotheses of `C92_first_row`: the run of the example above. -/
example : ∃ file', processFile (env tA (.ok ())) (some (tPairs, none)) true [] = (file', .ok none) ∧
    framesOf 0 (visitsOf (env tA (.ok ())) tPairs) = gframes tT (fun _ => tC.array) tS tO 5 ∧
    Sorts tA.argsort ∧ Motion.Unit tO ∧ tO 0 ≠ none := by
  obtain ⟨file', h⟩ := t_returns
  exact ⟨file', h, t_frames, Classical.choose_spec exists_sorts, (t_follows 5).unit, by simp [tO]⟩

/-! ## C93 -/

/-- **C93.**  For the same keyframes the stored molecular relaxations of molecule `m` are those of its true
motion: tau_D, tau_F the first times its displacement is beyond 3π/2k, π/2k; tau_T2, tau_T3, tau_T4 the first
times it has turned by more than π/2, π/3, π/4; and tau_L the time it left π/2k for the last time before
its displacement first was beyond 3π/2k.  `2**32 - 1` stands for never. -/
theorem C93_relaxations (hN : 10 ≤ N) (a : Args) (vars : Except PyErr ν) (c : Cell)
    (hdim : decide (a.mol.dimensions = 2) = c.is2D) (hmol : a.mol.positions ≠ []) {κ : ℝ} (hκ : 0 < κ)
    (hdef : a.relaxations = none) {pairs : List (List ι × GFrame PData)} {ending : Option PyErr}
    {file file' : File (Rec ι (Dict Quantity Val) (Dict String ℤ) ν)}
    {out : Option (List (Rec ι (Dict Quantity Val) (Dict String ℤ) ν))}
    (h : processFile (env a vars) (some (pairs, ending)) true file = (file', .ok out)) (k : ι)
    {n : ℕ} {t : ℕ → ℤ} {box : ℕ → List ℝ} {u s : ℕ → Fin N → V3} {θ σ : ℕ → Fin N → ℝ}
    {o : ℕ → Option (Fin N → Quat)} (hbox : box 0 = c.array) (hF : Follows c n u s θ σ o)
    (hw : waveOf a.calcWave c.box (List.ofFn (s 0)) a.wave = .ok κ)
    (hk : framesOf k (visitsOf (env a vars) pairs) = gframes t box s o n) (m : Fin N) :
    ∃ D F L T2 T3 T4,
      (∀ p ∈ [("tau_D", D), ("tau_F", F), ("tau_L", L), ("tau_T2", T2), ("tau_T3", T3), ("tau_T4", T4)],
        molCell ((rows file' "molecular_relaxations").filterMap (molOf k)) m p.1 = some p.2) ∧
      FirstBeyond n (fun i => t i - t 0) (fun i => len (c.flat (u i m - u 0 m)))
        (3 * (Real.pi / (2 * κ))) D ∧
      FirstBeyond n (fun i => t i - t 0) (fun i => len (c.flat (u i m - u 0 m)))
        (Real.pi / (2 * κ)) F ∧
      LastLeft n (fun i => t i - t 0) (fun i => len (c.flat (u i m - u 0 m)))
        (Real.pi / (2 * κ)) (3 * (Real.pi / (2 * κ))) L ∧
      FirstBeyond n (fun i => t i - t 0) (fun i => |θ i m - θ 0 m|) (Real.pi / 2) T2 ∧
      FirstBeyond n (fun i => t i - t 0) (fun i => |θ i m - θ 0 m|) (Real.pi / 3) T3 ∧
      FirstBeyond n (fun i => t i - t 0) (fun i => |θ i m - θ 0 m|) (Real.pi / 4) T4 := by
  have hN0 : 0 < N := by omega
  have hb : createFreudBox (box 0) (is2d (some a.mol)) = .ok c.box := by
    rw [hbox, show is2d (some a.mol) = c.is2D from hdim]
    exact createFreudBox_cell c
  obtain ⟨row, -, h2, -⟩ := keyframe_rows hN hb hF.unit hw hκ hdef hmol h hk
  have hdist : 0 < Real.pi / (2 * κ) := by have := Real.pi_pos; positivity
  obtain ⟨d, hd, hne, -, hcells⟩ := default_cells N (Real.pi / (2 * κ)) Real.pi hdist.le
    Real.pi_pos.le ((List.range (n + 1)).map (seen c.box t s o)) (by
      intro f hf
      obtain ⟨i, _, rfl⟩ := List.mem_map.1 hf
      simp [seen])
  have hrel : (relAfter c.box t s o κ (n + 1)).relax = d := by simp [relAfter, hd]
  obtain ⟨hTr, hRo, L, hL1, hL2⟩ := hcells m m.2
  have eT := history_eq (n := n) (seen c.box t s o) .translation m
    (fun i => len (c.flat (u i m - u 0 m))) (by
      intro i hi
      have := ((held_follows hF hi).sums hN0).1
      simp only [seen, reduceCtorEq, if_false, List.getD_eq_getElem?_getD, List.getElem?_ofFn, m.2,
        this, norm3_eq]
      rfl)
  have eR := history_eq (n := n) (seen c.box t s o) .rotation m
    (fun i => |θ i m - θ 0 m|) (by
      intro i hi
      have := ((held_follows hF hi).sums hN0).2
      simp only [seen, if_true, List.getD_eq_getElem?_getD, List.getElem?_ofFn, m.2, this,
        norm3_eq, len_angle]
      rfl)
  have hcell : ∀ name x, cell d name m = some x →
      molCell ((rows file' "molecular_relaxations").filterMap (molOf k)) m name = some x := by
    intro name x hx
    rw [h2]
    exact molCell_summary _ (by rw [hrel]; exact hne) m m.2 name x (by rw [hrel]; exact hx)
  obtain ⟨D, hD1, hD2⟩ := hTr "tau_D" (3 * (Real.pi / (2 * κ))) (by simp)
  obtain ⟨F, hF1, hF2⟩ := hTr "tau_F" (Real.pi / (2 * κ)) (by simp)
  obtain ⟨T2, hT21, hT22⟩ := hRo "tau_T2" (Real.pi / 2) (by simp)
  obtain ⟨T3, hT31, hT32⟩ := hRo "tau_T3" (Real.pi / 3) (by simp)
  obtain ⟨T4, hT41, hT42⟩ := hRo "tau_T4" (Real.pi / 4) (by simp)
  rw [eT] at hD2 hF2 hL2
  rw [eR] at hT22 hT32 hT42
  refine ⟨D, F, L, T2, T3, T4, ?_, firstBeyond_of hD2, firstBeyond_of hF2,
    lastLeft_of (by linarith) hL2, firstBeyond_of hT22, firstBeyond_of hT32, firstBeyond_of hT42⟩
  simp only [List.mem_cons, List.not_mem_nil, or_false]
  rintro p (rfl | rfl | rfl | rfl | rfl | rfl)
  exacts [hcell _ _ hD1, hcell _ _ hF1, hcell _ _ hL1, hcell _ _ hT21, hcell _ _ hT31, hcell _ _ hT41]

/-- In the example, with π/2k = π/4, molecule 0 is beyond this from frame 1 on and beyond 3π/2k from
frame 3 on; tau_F is 3 and tau_D is 9. -/
example : FirstBeyond 5 (fun i => tT i - tT 0) (fun i => (i : ℝ)) (Real.pi / (2 * 2)) 3 ∧
    FirstBeyond 5 (fun i => tT i - tT 0) (fun i => (i : ℝ)) (3 * (Real.pi / (2 * 2))) 9 := by
  have h1 := Real.pi_gt_three
  have h2 := Real.pi_lt_d2
  constructor
  · refine ⟨Or.inr ⟨1, by omega, by push_cast; linarith, by simp [tT]⟩, ?_⟩
    rintro y (rfl | ⟨i, hi, h3, rfl⟩)
    · norm_num
    · have : i ≠ 0 := by rintro rfl; push_cast at h3; linarith
      simp only [tT]
      push_cast
      omega
  · refine ⟨Or.inr ⟨3, by omega, by push_cast; linarith, by simp [tT]⟩, ?_⟩
    rintro y (rfl | ⟨i, hi, h3, rfl⟩)
    · norm_num
    · have : 2 < i := by
        by_contra h4
        have : (i : ℝ) ≤ 2 := by exact_mod_cast not_lt.1 h4
        linarith
      simp only [tT]
      push_cast
      omega

/-! ## C94 -/

/-- The property as stated: a file with molecules in every frame is processed, whatever their number. -/
def AnySize : Prop :=
  ∀ (N : ℕ), 0 < N → ∀ (a : Args), a.wave = some 1 → a.mol = trimerMol → a.relaxations = none →
    ∀ (t : ℕ → ℤ) (c : Cell) (s : ℕ → Fin N → V3) (o : ℕ → Option (Fin N → Quat)) (n : ℕ),
    c.Proper → Motion.Unit o → ∃ file',
      processFile (env a (.ok ())) (some ((gframes t (fun _ => c.array) s o n).map
        (fun f => ([0], f)), none)) true ([] : File (Rec ℕ (Dict Quantity Val) (Dict String ℤ) Unit)) =
      (file', .ok none)

/-- One to nine molecules: whatever the rest of the file, the first frame ends the run with
ZeroDivisionError, and nothing is written. -/
theorem C94_small_systems (hN : 0 < N) (hN' : N < 10) (a : Args) (vars : Except PyErr ν) {b : Box}
    {κ : ℝ} (hκ : 0 < κ) (hdef : a.relaxations = none) {t : ℕ → ℤ} {box : ℕ → List ℝ}
    {s : ℕ → Fin N → V3} {o : ℕ → Option (Fin N → Quat)} (ho : Motion.Unit o)
    (hb : createFreudBox (box 0) (decide (a.mol.dimensions = 2)) = .ok b)
    (hw : waveOf a.calcWave b (List.ofFn (s 0)) a.wave = .ok κ) (k : ι)
    (rest : List (List ι × GFrame PData)) (ending : Option PyErr)
    (file : File (Rec ι (Dict Quantity Val) (Dict String ℤ) ν)) :
    processFile (env a vars) (some (([k], gf t box s o 0) :: rest, ending)) true file =
      (file, .error .zeroDivisionError) := by
  refine C26_escapes (env a vars) k (gf t box s o 0) ending rest file _ _ .zeroDivisionError
    (by simp [env, gf]; omega) (newDyn_gf hN hb ho) (newRelax_gf hN hb hw hκ)
    (by simp [env, hdef]) ?_ (by decide) (by decide)
  have hc : (env a vars).computeAll
      (dynAfter b (some a.mol) a.wave 360 (t 0) (held s) (held o) 0) (gf t box s o 0) =
      (dynAfter b (some a.mol) a.wave 360 (t 0) (held s) (held o) 1,
        (dynAfter b (some a.mol) a.wave 360 (t 0) (held s) (held o) 1).quantities a.argsort (t 0)
          a.scattering) :=
    computeAll_dynAfter a.argsort b (some a.mol) a.wave 360 (t 0) (t 0) (held s) (held o)
      (held_unit ho) 0 a.scattering
  rw [hc]
  set D := dynAfter b (some a.mol) a.wave 360 (t 0) (held s) (held o) 1 with hD
  have hd : D.motion.deltaT = List.ofFn (sumT b (held s) 1) := rfl
  have hr : D.motion.deltaR = List.ofFn (sumR (held o) 1) := rfl
  obtain ⟨al, hal⟩ := alpha_ok hd
  obtain ⟨ar, har⟩ := alphaRot_ok hr
  obtain ⟨ga, hga⟩ := gamma_ok hd hr
  have hov : mobileOverlap a.argsort D.displacement D.rotation = .error .zeroDivisionError := by
    apply C37_refuted
    unfold Dyn.displacement
    rw [List.length_map, hd, List.length_ofFn]
    exact hN'
  have hisf : ∃ x, isfVal D a.scattering = .ok x := by
    unfold isfVal
    split
    · rename_i h
      rw [Bool.and_eq_true] at h
      have : D.waveVector = a.wave.map (fun k => createWaveVector k 360) := rfl
      obtain ⟨w, hw'⟩ := Option.isSome_iff_exists.1 h.2
      have hw'' : a.wave = some w := hw'
      unfold Dyn.isf
      rw [this, hw'']
      exact ⟨_, rfl⟩
    · exact ⟨_, rfl⟩
  obtain ⟨isf, hisf⟩ := hisf
  have hdist : ∃ x, D.distance = .ok x := by
    unfold Dyn.distance
    have : D.waveNumber = a.wave := rfl
    rw [this]
    cases hk' : a.wave with
    | none => exact ⟨_, rfl⟩
    | some k =>
      rw [hk'] at hw
      simp only [waveOf, Except.ok.injEq] at hw
      subst hw
      simp only [if_neg hκ.ne']
      exact ⟨_, rfl⟩
  obtain ⟨distance, hdist⟩ := hdist
  simp only
  rw [quantities_eq, hal, hisf, hdist, har, hga, hov]
  rfl

/-- **C94 is false**: a single molecule. -/
theorem C94_any_size_refuted : ¬ AnySize := by
  intro h
  let a : Args := ⟨fun _ => [], fun _ _ => .error .valueError, trimerMol, some 1, false, none⟩
  let c : Cell := ⟨1, 1, 1, 0, 0, 0, true⟩
  let t : ℕ → ℤ := fun i => i
  let s : ℕ → Fin 1 → V3 := fun _ _ => 0
  let o : ℕ → Option (Fin 1 → Quat) := fun _ => none
  have ho : Motion.Unit o := by intro i q hq; cases hq
  obtain ⟨file', h1⟩ := h 1 (by omega) a rfl rfl rfl t c s o 1 (by simp [c, Cell.Proper]) ho
  obtain ⟨b, hb⟩ : ∃ b, createFreudBox c.array (decide (a.mol.dimensions = 2)) = .ok b := ⟨_, rfl⟩
  have h2 := C94_small_systems (N := 1) (ι := ℕ) (by omega) (by omega) a (.ok ()) (b := b) one_pos rfl
    (t := t) (box := fun _ => c.array) (s := s) (o := o) ho hb rfl 0
    [([0], gf t (fun _ => c.array) s o 1)] none []
  have e : (gframes t (fun _ => c.array) s o 1).map (fun f => ([0], f)) =
      [([0], gf t (fun _ => c.array) s o 0), ([0], gf t (fun _ => c.array) s o 1)] := rfl
  rw [e, h2] at h1
  simp at h1

/-- **C94, the part that holds.**  Missing for the full statement: one to nine molecules, where every
run fails (`C94_small_systems`).  With ten or more the run returns. -/
theorem C94_any_size_partial (hN : 10 ≤ N) (a : Args) (v : ν) (hmol : a.mol.positions ≠ [])
    (hdef : a.relaxations = none) {κ : ℝ} (hκ : 0 < κ) (hw : a.wave = some κ) (t : ℕ → ℤ) (c : Cell)
    (s : ℕ → Fin N → V3) (o : ℕ → Option (Fin N → Quat)) (n : ℕ) (k : ι)
    (file : File (Rec ι (Dict Quantity Val) (Dict String ℤ) ν)) :
    ∃ file', processFile (env a (.ok v)) (some ((gframes t (fun _ => c.array) s o n).map
      (fun f => ([k], f)), none)) true file = (file', .ok none) := by
  apply C91_returns a v hmol (by simp [hdef]) (by rw [hw]; simp [hκ.ne'])
  · intro p hp _
    simp only [gframes, List.map_map, List.mem_map] at hp
    obtain ⟨i, _, rfl⟩ := hp
    refine ⟨by simpa [gf] using hN, ?_, _, κ, rfl, by rw [hw]; rfl, hκ⟩
    cases ho : o i with
    | none => simp [gf, ho]
    | some q =>
      simp only [Function.comp, gf, ho, Option.map_some, ne_eq, Option.some.injEq]
      intro h0
      have := congrArg List.length h0
      simp at this
      omega
  · refine ⟨([k], gf t (fun _ => c.array) s o 0), ?_, ?_, by simp⟩
    · simp only [List.mem_map]
      exact ⟨_, by simp only [gframes, List.mem_map]; exact ⟨0, by simp, rfl⟩, rfl⟩
    · intro h0
      have := congrArg List.length h0
      simp [gf] at this
      omega

/-- The trimer has positions. -/
example : trimerMol.positions ≠ [] ∧ trimerMol.dimensions = 2 := by
  simp [trimerMol, Molecule.trimer, Molecule.Arg.isNumber, Molecule.initMolecule,
    Molecule.trimerPositions]

end Verif.Pipeline
