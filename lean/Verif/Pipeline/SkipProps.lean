import Verif.Pipeline.SkipLemmas
/-!
# Properties of the whole of `process_file`, C102: frames that are skipped
-/

namespace Verif.Pipeline

open Verif.Motion Verif.Dynamics Verif.Relax Verif.Gsd Verif.Process Verif.Cache Quaternion

variable {N : ℕ} {ν ι : Type} [DecidableEq ι]

/-! ## C102 -/

/-- The property as stated: a frame for which a warning is logged instead of a row leaves no trace, the
other rows are those of the file without it. -/
def SkipHarmless : Prop :=
  ∀ (a : Args), a.mol.positions ≠ [] → a.wave = some 2 → a.relaxations = none →
    ∀ (f bad : GFrame PData) (fs : List (GFrame PData)),
    outcome (env a (.ok ())) [f] bad = none →
    ∀ file₁ file₂ : File (Rec ℕ (Dict Quantity Val) (Dict String ℤ) Unit),
    processFile (env a (.ok ())) (some ((f :: bad :: fs).map (fun f => ([0], f)), none)) true [] =
      (file₁, .ok none) →
    processFile (env a (.ok ())) (some ((f :: fs).map (fun f => ([0], f)), none)) true [] =
      (file₂, .ok none) →
    (rows file₁ "dynamics").filterMap (dynOf 0) = (rows file₂ "dynamics").filterMap (dynOf 0)

/-- What a tracker keeps of a frame with an orientation that is not normalised: the displacement to it is
counted, but the next one is again counted from the frame before. -/
theorem C102_counted_again (b : Box) (dT dR s s' s'' : Fin N → V3) (q q' q'' : Fin N → Quat)
    (h : ∀ m, normSq (q m) = 1) (h' : ∃ m, normSq (q' m) ≠ 1) (h'' : ∀ m, normSq (q'' m) = 1) :
    ∃ m₁ m₂, Tracked.add ⟨b, List.ofFn dT, List.ofFn dR, List.ofFn s, some (List.ofFn q)⟩
        (List.ofFn s') (some (List.ofFn q')) = (m₁, some .valueError) ∧
      m₁.add (List.ofFn s'') (some (List.ofFn q'')) = (m₂, none) ∧
      m₂.deltaT = List.ofFn (fun m => dT m - b.wrap (s m - s' m) - b.wrap (s m - s'' m)) ∧
      m₂.deltaR = List.ofFn (fun m => dR m + toEuler (q'' m * (q m)⁻¹)) ∧
      m₂.prevPos = List.ofFn s'' ∧ m₂.prevOri = some (List.ofFn q'') := by
  have e := Motion.add_ofFn b (fun m => dT m - b.wrap (s m - s' m)) dR s s'' (some q) (some q'')
    (by intro p hp; cases hp; exact h) (by intro p hp; cases hp; exact h'')
  exact ⟨_, _, add_unnormalised b dT dR s s' q q' h (by push Not; exact h'), e, rfl, rfl, rfl, rfl⟩

example : (∀ m : Fin 2, normSq ((fun _ => 1 : Fin 2 → Quat) m) = 1) ∧
    ∃ m : Fin 2, normSq ((fun _ => ((2 : ℝ) : Quat) : Fin 2 → Quat) m) ≠ 1 := by
  refine ⟨fun _ => by simp, 0, ?_⟩
  simp only [normSq_coe]
  norm_num

/-- The cell of the witness. -/
noncomputable def kC : Cell := ⟨8, 8, 1, 0, 0, 0, true⟩
/-- Positions of the witness: the first molecule at `x`. -/
def kS (x : ℝ) : Fin 10 → V3 := fun m => if m = 0 then (x, 0, 0) else 0
/-- Positions of the frames that are not skipped. -/
def kP (i : ℕ) : Fin 10 → V3 := kS (if i = 0 then 0 else 1)
/-- Their orientations. -/
def kO (_ : ℕ) : Option (Fin 10 → Quat) := some (fun _ => 1)
/-- Their times. -/
def kT (i : ℕ) : ℤ := i
/-- The frame that is skipped: the first molecule at 1, and orientations that are zero. -/
noncomputable def kBad : GFrame PData := qf (N := 10) (1, kC.array, kS 1, fun _ => 0)
/-- The arguments of the witness. -/
noncomputable def kA : Args :=
  ⟨Classical.choose exists_sorts, fun _ _ => .error .valueError, exMol, some 2, false, none⟩

theorem kC_wrap (x y : ℝ) (h : |x - y| < 4) (m : Fin 10) :
    kC.box.wrap (kS x m - kS y m) = kS (x - y) m := by
  rw [abs_lt] at h
  have := wrap_image kC (by simp [kC, Cell.Proper]) (kS x m - kS y m) (if m = 0 then (x - y) / 8 else 0) 0 0 0 0 0
    (by split <;> constructor <;> linarith [h.1, h.2]) (by constructor <;> norm_num)
    (by constructor <;> norm_num) (by
      by_cases hm : m = 0 <;> simp [kS, hm, kC, Cell.flat, Cell.comb])
  rw [this]
  by_cases hm : m = 0 <;> simp [kS, hm, kC, Cell.comb]

theorem kS_len (x : ℝ) (hx : 0 ≤ x) : avg (fun m : Fin 10 => len (kS x m)) = x / 10 := by
  unfold avg
  rw [Finset.sum_eq_single 0 (fun m _ hm => by simp [kS, hm, len, len2]) (by simp)]
  simp [kS, len, len2, Real.sqrt_mul_self hx]

theorem kO_unit : Motion.Unit kO := by
  intro i q hq m
  simp only [kO, Option.some.injEq] at hq
  subst hq
  simp

theorem k_sumT1 (m : Fin 10) : sumT kC.box (held kP) 1 m = 0 := by
  simp [sumT, held, wrap_zero]

theorem k_sumT2 (m : Fin 10) : sumT kC.box (held kP) 2 m = kS 1 m := by
  simp only [sumT, Finset.sum_range_succ, Finset.sum_range_zero, held, kP]
  rw [kC_wrap _ _ (by norm_num), kC_wrap _ _ (by norm_num)]
  by_cases hm : m = 0 <;> simp [kS, hm]

/-- A frame that trackers can be made from. -/
def KUsable (f : GFrame PData) : Prop :=
  f.data.position ≠ [] ∧ 10 ≤ f.data.position.length ∧ f.data.orientation ≠ some [] ∧
    ∃ b κ, createFreudBox f.data.box (decide (kA.mol.dimensions = 2)) = .ok b ∧
      waveOf kA.calcWave b f.data.position kA.wave = .ok κ ∧ 0 < κ

theorem k_usable (i : ℕ) : KUsable (gf kT (fun _ => kC.array) kP kO i) :=
  ⟨by simp [gf], by simp [gf], by simp [gf, kO], kC.box, 2, createFreudBox_cell kC, rfl, by norm_num⟩

theorem qf_usable {N : ℕ} (hN : 10 ≤ N) (t : ℤ) (s : Fin N → V3) (q : Fin N → Quat) :
    KUsable (qf (t, kC.array, s, q)) :=
  ⟨by simp [qf]; omega, by simpa [qf], by simp [qf]; omega, kC.box, 2, createFreudBox_cell kC, rfl,
    by norm_num⟩

theorem kBad_usable : KUsable kBad := qf_usable le_rfl _ _ _

/-- A run over usable frames returns, and shows them to keyframe 0. -/
theorem k_run (l : List (GFrame PData)) (hl : l ≠ []) (hmem : ∀ f ∈ l, KUsable f) :
    ∃ file', processFile (env kA (.ok ())) (some (l.map (fun f => ([0], f)), none)) true [] =
        (file', .ok none) ∧
      framesOf 0 (visitsOf (env kA (.ok ())) (l.map (fun f => ([0], f)))) = l := by
  obtain ⟨file', hf⟩ := C91_returns (ι := ℕ) kA () (by simp [kA, exMol]) (by simp [kA]) (by simp [kA])
    (l.map (fun f => ([0], f))) [] (by
      intro p hp _
      obtain ⟨f, hf, rfl⟩ := List.mem_map.1 hp
      exact (hmem f hf).2) (by
      obtain ⟨f, hf⟩ := List.exists_mem_of_ne_nil l hl
      exact ⟨([0], f), List.mem_map.2 ⟨f, hf, rfl⟩, (hmem f hf).1, by simp⟩)
  refine ⟨file', hf, ?_⟩
  clear hf hl
  induction l with
  | nil => rfl
  | cons f l ih =>
    have hp : (env kA (.ok ())).numPos f ≠ 0 := by
      simpa [env] using (hmem f (by simp)).1
    have ih' := ih (fun g hg => hmem g (List.mem_cons_of_mem _ hg))
    simp only [visitsOf, framesOf, List.map_cons, List.flatMap_cons, if_neg hp] at ih' ⊢
    simp only [List.map_nil, List.cons_append, List.nil_append]
    rw [List.filterMap_cons_some (b := f) (by simp), ih']

/-- **C102 is false**: a molecule moves from 0 to 1 and stays there.  The second frame is skipped, its
orientations being zero; the displacement reported for the third is 2. -/
theorem C102_skip_harmless_refuted : ¬ SkipHarmless := by
  intro h
  have hb : createFreudBox ((fun _ : ℕ => kC.array) 0) (is2d (some kA.mol)) = .ok kC.box :=
    createFreudBox_cell kC
  obtain ⟨file₁, r₁, k₁⟩ := k_run [gf kT (fun _ => kC.array) kP kO 0, kBad,
    gf kT (fun _ => kC.array) kP kO 1] (by simp) (by
      intro f hf
      simp only [List.mem_cons, List.not_mem_nil, or_false] at hf
      rcases hf with rfl | rfl | rfl <;> first | exact k_usable _ | exact kBad_usable)
  obtain ⟨file₂, r₂, k₂⟩ := k_run [gf kT (fun _ => kC.array) kP kO 0,
    gf kT (fun _ => kC.array) kP kO 1] (by simp) (by
      intro f hf
      simp only [List.mem_cons, List.not_mem_nil, or_false] at hf
      rcases hf with rfl | rfl <;> exact k_usable _)
  have hq1 : ∀ m : Fin 10, normSq ((fun _ => 1 : Fin 10 → Quat) m) = 1 := fun m => by simp
  -- the run without the frame
  obtain ⟨row, e1, -, e3⟩ := keyframe_rows (t := kT) (box := fun _ => kC.array) (s := kP) (o := kO) (n := 1)
    (κ := 2) le_rfl hb kO_unit rfl (by norm_num) rfl (by simp [kA, exMol]) r₂ k₂
  -- the run with the frame
  have s0 := solo_traj (vars := (.ok () : Except PyErr Unit)) (t := kT) (box := fun _ => kC.array) (s := kP)
    (o := kO) (by omega) hb kO_unit (κ := 2) rfl (by norm_num) rfl 0 row (fun i hi => e3 i)
  have hd1 : dynAfter kC.box (some kA.mol) kA.wave 360 (kT 0) (held kP) (held kO) (0 + 1) =
      dynWith kA kC.box (kT 0) (sumT kC.box (held kP) 1) (sumR (held kO) 1) (kP 0) (fun _ => 1) := rfl
  have hbad : ∀ r, soloStep (env kA (.ok () : Except PyErr Unit)) (dynAfter kC.box (some kA.mol) kA.wave 360
      (kT 0) (held kP) (held kO) (0 + 1), r) kBad = ((dynWith kA kC.box (kT 0) (kS 1) (sumR (held kO) 1) (kP 0)
        (fun _ => 1), r), none) := by
    intro r
    have hc := computeAll_without (a := kA) (vars := (.ok () : Except PyErr Unit)) kC.box (kT 0)
      (sumT kC.box (held kP) 1) (sumR (held kO) 1) (kP 0) (fun _ => 1) hq1
      (1, kC.array, kS 1, fun _ => 0) (fun hn => by simpa using hn 0)
    rw [← hd1] at hc
    have e : (fun m => sumT kC.box (held kP) 1 m - kC.box.wrap (kP 0 m - kS 1 m)) = kS 1 := by
      funext m
      rw [k_sumT1, show kP 0 = kS 0 from by simp [kP], kC_wrap _ _ (by norm_num)]
      by_cases hm : m = 0 <;> simp [kS, hm]
    simp only at hc
    rw [e] at hc
    exact soloStep_error rfl r hc
  have hf0 : gframes kT (fun _ => kC.array) kP kO 0 = [gf kT (fun _ => kC.array) kP kO 0] := rfl
  rw [hf0] at s0
  have s1 := solo_snoc _ _ kBad _ s0
  simp only [hbad] at s1
  have hf1 : gf kT (fun _ => kC.array) kP kO 1 = qf (N := 10) (1, kC.array, kS 1, fun _ => 1) := by
    simp [gf, qf, kT, kP, kO]
  obtain ⟨row', hrow'⟩ := quantities_with (a := kA) (N := 10) le_rfl (by simp [kA]) (by simp [kA, exMol]) kC.box
    (kT 0) 1 (fun m => kS 1 m - kC.box.wrap (kP 0 m - kS 1 m))
    (fun m => sumR (held kO) 1 m + toEuler ((1 : Quat) * (1 : Quat)⁻¹)) (kS 1) (fun _ => 1)
  have hc := computeAll_with (a := kA) (vars := (.ok () : Except PyErr Unit)) kC.box (kT 0)
      (kS 1) (sumR (held kO) 1) (kP 0) (fun _ => 1) hq1 (1, kC.array, kS 1, fun _ => 1) hq1
  simp only [hrow'] at hc
  rw [← hf1] at hc
  have hst := soloStep_ok (r := relAfter kC.box kT kP kO 2 (0 + 1)) rfl hc
    (show (env kA (.ok () : Except PyErr Unit)).relaxAdd _ _ = _ from relAfter_add kO_unit (by norm_num) 1)
  have s2 := solo_snoc _ _ (gf kT (fun _ => kC.array) kP kO 1) _ s1
  simp only [hst] at s2
  obtain ⟨g1, -⟩ := C25_keyframes_isolated _ _ _ _ _ _ r₁ (Or.inl rfl) 0
  rw [k₁] at g1
  have hrows : soloRows (env kA (.ok () : Except PyErr Unit)) [gf kT (fun _ => kC.array) kP kO 0, kBad,
      gf kT (fun _ => kC.array) kP kO 1] = [row 0, row'] := by
    unfold soloRows
    simp only [List.cons_append, List.nil_append] at s2
    rw [s2]
    simp
  have hout : outcome (env kA (.ok ())) [gf kT (fun _ => kC.array) kP kO 0] kBad = none := by
    unfold outcome
    rw [s0]
    simp only [hbad]
  have heq := h kA (by simp [kA, exMol]) rfl rfl _ _ _ hout file₁ file₂ r₁ r₂
  rw [g1, hrows, e1] at heq
  simp only [List.range_succ, List.range_zero, List.nil_append, List.map_cons, List.map_nil, List.cons_append,
    List.cons.injEq, and_true, true_and] at heq
  obtain ⟨md, -, -, -, -, p1, -, -, -, -, p2, -⟩ := C33_moments (computeAll_held kO_unit _ (e3 1)) (by omega)
    _ _ rfl rfl
  obtain ⟨md', -, -, -, -, q1, -, -, -, -, q2, -⟩ := C33_moments (N := 10) hc (by omega)
    (fun m => kS 1 m - kC.box.wrap (kP 0 m - kS 1 m))
    (fun m => sumR (held kO) 1 m + toEuler ((1 : Quat) * (1 : Quat)⁻¹)) rfl rfl
  unfold Reports at p1 q1
  rw [heq, p1] at q1
  simp only [Option.some.injEq, Val.num.injEq] at q1
  rw [p2, q2] at q1
  have a1 : (fun m => len (sumT kC.box (held kP) (1 + 1) m)) = fun m => len (kS 1 m) := by
    funext m; rw [k_sumT2]
  have a2 : (fun m => len (kS 1 m - kC.box.wrap (kP 0 m - kS 1 m))) = fun m => len (kS 2 m) := by
    funext m
    rw [show kP 0 = kS 0 from by simp [kP], kC_wrap _ _ (by norm_num)]
    congr 1
    by_cases hm : m = 0
    · simp only [kS, if_pos hm, Prod.mk_sub_mk]
      norm_num
    · simp [kS, hm]
  have a3 := (congrArg avg a1).symm.trans (q1.trans (congrArg avg a2))
  rw [kS_len 1 (by norm_num), kS_len 2 (by norm_num)] at a3
  norm_num at a3

/-- **C102, the part that holds.**  Missing for the full statement: frames of the right size with orientations
that are not normalised (`C102_skip_harmless_refuted`).  A frame with another number of positions leaves no
trace: rows and molecular relaxations are those of the file without such frames. -/
theorem C102_skip_harmless_partial (a : Args) (vars : Except PyErr ν) (hdef : a.relaxations = none)
    {pairs pairs' : List (List ι × GFrame PData)} {ending ending' : Option PyErr}
    {file₁ file₂ : File (Rec ι (Dict Quantity Val) (Dict String ℤ) ν)}
    {out₁ out₂ : Option (List (Rec ι (Dict Quantity Val) (Dict String ℤ) ν))}
    (h₁ : processFile (env a vars) (some (pairs, ending)) true [] = (file₁, .ok out₁))
    (h₂ : processFile (env a vars) (some (pairs', ending')) true [] = (file₂, .ok out₂))
    (k : ι) (f : GFrame PData) (fs fs' : List (GFrame PData))
    (hk : framesOf k (visitsOf (env a vars) pairs) = f :: fs)
    (hk' : framesOf k (visitsOf (env a vars) pairs') = f :: fs')
    (hfs : fs' = fs.filter (fun g => g.data.position.length = f.data.position.length))
    (hn : ∀ g ∈ f :: fs, g.data.position.length ≠ 1) :
    (rows file₁ "dynamics").filterMap (dynOf k) = (rows file₂ "dynamics").filterMap (dynOf k) ∧
    (rows file₁ "molecular_relaxations").filterMap (molOf k) =
      (rows file₂ "molecular_relaxations").filterMap (molOf k) := by
  obtain ⟨g1, g2⟩ := C25_keyframes_isolated _ _ _ _ _ _ h₁ (Or.inl rfl) k
  obtain ⟨g1', g2'⟩ := C25_keyframes_isolated _ _ _ _ _ _ h₂ (Or.inl rfl) k
  rw [g1, g1', g2, g2', hk, hk', hfs]
  unfold soloRows soloSummary
  rw [solo_mismatch (vars := vars) hdef f fs (hn f (by simp)) (fun g hg => hn g (List.mem_cons_of_mem _ hg))]
  exact ⟨rfl, rfl⟩

/-- Ten molecules, then eleven, then ten. -/
example : ∃ (f : GFrame PData) (fs fs' : List (GFrame PData)) (file₁ file₂ : _),
    processFile (env kA (.ok ())) (some ((f :: fs).map (fun f => ([0], f)), none)) true [] =
      (file₁, .ok none) ∧
    processFile (env kA (.ok ())) (some ((f :: fs').map (fun f => ([0], f)), none)) true [] =
      (file₂, .ok none) ∧
    framesOf 0 (visitsOf (env kA (.ok ())) ((f :: fs).map (fun f => ([0], f)))) = f :: fs ∧
    framesOf 0 (visitsOf (env kA (.ok ())) ((f :: fs').map (fun f => ([0], f)))) = f :: fs' ∧
    fs' = fs.filter (fun g => g.data.position.length = f.data.position.length) ∧ fs' ≠ [] ∧ fs' ≠ fs ∧
    ∀ g ∈ f :: fs, g.data.position.length ≠ 1 := by
  obtain ⟨file₁, r₁, k₁⟩ := k_run [gf kT (fun _ => kC.array) kP kO 0,
    qf (N := 11) (1, kC.array, 0, fun _ => 1), gf kT (fun _ => kC.array) kP kO 1] (by simp) (by
      intro f hf
      simp only [List.mem_cons, List.not_mem_nil, or_false] at hf
      rcases hf with rfl | rfl | rfl
      · exact k_usable _
      · exact qf_usable (by norm_num) _ _ _
      · exact k_usable _)
  obtain ⟨file₂, r₂, k₂⟩ := k_run [gf kT (fun _ => kC.array) kP kO 0,
    gf kT (fun _ => kC.array) kP kO 1] (by simp) (by
      intro f hf
      simp only [List.mem_cons, List.not_mem_nil, or_false] at hf
      rcases hf with rfl | rfl <;> exact k_usable _)
  refine ⟨_, _, _, file₁, file₂, r₁, r₂, k₁, k₂, ?_, by simp, by simp, by simp [gf, qf]⟩
  simp [List.filter, gf, qf]

open Classical in
/-- A frame with orientations that are not normalised leaves no trace in the molecular relaxations. -/
theorem C102_relaxations_kept (hN : 10 ≤ N) (a : Args) (vars : Except PyErr ν) (hmol : a.mol.positions ≠ [])
    (hw : a.wave ≠ some 0) (hdef : a.relaxations = none)
    {pairs pairs' : List (List ι × GFrame PData)} {ending ending' : Option PyErr}
    {file₁ file₂ : File (Rec ι (Dict Quantity Val) (Dict String ℤ) ν)}
    {out₁ out₂ : Option (List (Rec ι (Dict Quantity Val) (Dict String ℤ) ν))}
    (h₁ : processFile (env a vars) (some (pairs, ending)) true [] = (file₁, .ok out₁))
    (h₂ : processFile (env a vars) (some (pairs', ending')) true [] = (file₂, .ok out₂))
    (k : ι) (x : ℤ × List ℝ × (Fin N → V3) × (Fin N → Quat))
    (xs : List (ℤ × List ℝ × (Fin N → V3) × (Fin N → Quat))) (hx : Normalised x)
    (hk : framesOf k (visitsOf (env a vars) pairs) = (x :: xs).map qf)
    (hk' : framesOf k (visitsOf (env a vars) pairs') = (x :: xs.filter (fun x => Normalised x)).map qf) :
    (rows file₁ "molecular_relaxations").filterMap (molOf k) =
      (rows file₂ "molecular_relaxations").filterMap (molOf k) := by
  obtain ⟨-, g2⟩ := C25_keyframes_isolated _ _ _ _ _ _ h₁ (Or.inl rfl) k
  obtain ⟨-, g2'⟩ := C25_keyframes_isolated _ _ _ _ _ _ h₂ (Or.inl rfl) k
  rw [g2, g2', hk, hk', summary_normalised (vars := vars) hdef hN hw hmol x hx xs]

open Classical in
/-- The witness of `C102_skip_harmless_refuted`. -/
example : ∃ (x : ℤ × List ℝ × (Fin 10 → V3) × (Fin 10 → Quat)) (xs : List _) (file₁ file₂ : _),
    processFile (env kA (.ok ())) (some (((x :: xs).map qf).map (fun f => ([0], f)), none)) true [] =
      (file₁, .ok none) ∧
    processFile (env kA (.ok ())) (some (((x :: xs.filter (fun x => Normalised x)).map qf).map
      (fun f => ([0], f)), none)) true [] = (file₂, .ok none) ∧
    framesOf 0 (visitsOf (env kA (.ok ())) (((x :: xs).map qf).map (fun f => ([0], f)))) =
      (x :: xs).map qf ∧
    framesOf 0 (visitsOf (env kA (.ok ())) (((x :: xs.filter (fun x => Normalised x)).map qf).map
      (fun f => ([0], f)))) = (x :: xs.filter (fun x => Normalised x)).map qf ∧
    Normalised x ∧ (∃ y ∈ xs, ¬ Normalised y) ∧ ∃ y ∈ xs, Normalised y := by
  let x : ℤ × List ℝ × (Fin 10 → V3) × (Fin 10 → Quat) := (0, kC.array, kS 0, fun _ => 1)
  let xs : List (ℤ × List ℝ × (Fin 10 → V3) × (Fin 10 → Quat)) :=
    [(1, kC.array, kS 1, fun _ => 0), (2, kC.array, kS 1, fun _ => 1)]
  have hu : ∀ f ∈ (x :: xs).map qf, KUsable f := by
    intro f hf
    simp only [x, xs, List.map_cons, List.map_nil, List.mem_cons, List.not_mem_nil, or_false] at hf
    rcases hf with rfl | rfl | rfl <;> exact qf_usable le_rfl _ _ _
  obtain ⟨file₁, r₁, k₁⟩ := k_run ((x :: xs).map qf) (by simp) hu
  obtain ⟨file₂, r₂, k₂⟩ := k_run ((x :: xs.filter (fun x => Normalised x)).map qf) (by simp) (by
    intro f hf
    apply hu
    obtain ⟨y, hy, rfl⟩ := List.mem_map.1 hf
    apply List.mem_map_of_mem
    rcases List.mem_cons.1 hy with rfl | hy
    · simp
    · exact List.mem_cons_of_mem _ (List.mem_of_mem_filter hy))
  refine ⟨x, xs, file₁, file₂, r₁, r₂, k₁, k₂, fun m => by simp [x], ?_, ?_⟩
  · exact ⟨(1, kC.array, kS 1, fun _ => 0), by simp [xs], fun h => by simpa using h 0⟩
  · exact ⟨(2, kC.array, kS 1, fun _ => 1), by simp [xs], fun m => by simp⟩

end Verif.Pipeline
