import Verif.Relax.Lemmas
import Verif.Process.Props
import Verif.Dynamics.EndToEnd
import Verif.Pipeline.Spec
/-!
# Lemmas for the whole of `process_file`
-/

namespace Verif.Pipeline

open Verif.Motion Verif.Dynamics Verif.Relax Verif.Gsd Verif.Process Verif.Cache

/-- The sequence with its first entry doubled: what a tracker sees, which is made from the first
frame and then given it again. -/
def held {α : Type} (s : ℕ → α) (i : ℕ) : α := s (i - 1)

theorem held_unit {N : ℕ} {o : ℕ → Option (Fin N → Quat)} (h : Motion.Unit o) :
    Motion.Unit (held o) :=
  fun i q hq m => h (i - 1) q hq m

/-- A run of keyframe `k`: a run that succeeded reports what its own trackers report. -/
theorem rows_of_keyframe {ι Φ D R ρ σ ν : Type} [DecidableEq ι] (E : Env Φ D R ρ σ ν)
    (pairs : List (List ι × Φ)) (ending : Option PyErr) (file file' : File (Rec ι ρ σ ν))
    (o : Option (List (Rec ι ρ σ ν)))
    (h : processFile E (some (pairs, ending)) true file = (file', .ok o)) (k : ι)
    (hne : soloRows E (framesOf k (visitsOf E pairs)) ≠ []) :
    (rows file' "dynamics").filterMap (dynOf k) = soloRows E (framesOf k (visitsOf E pairs)) ∧
    (rows file' "molecular_relaxations").filterMap (molOf k) =
      (soloSummary E (framesOf k (visitsOf E pairs))).mapIdx (fun m r => (m, r)) := by
  refine C25_keyframes_isolated E pairs ending file file' o h (Or.inr ?_) k
  obtain ⟨_, _, h1, _⟩ := processFile_ok E pairs ending file file' o h
  rw [ne_eq, expected_nil_iff E _ h1]
  intro h0
  obtain ⟨_, _, _, k4⟩ := coreRun_known E (visitsOf E pairs) [] [] (Known.nil E) h1
  have := k4 k
  rw [h0] at this
  simp only [List.nil_append, List.filterMap_nil, List.append_nil] at this
  exact hne (this.trans rfl)

theorem runAll_append {K : Type} [Field K] [LinearOrder K] (d : Dict String (MolRelax K))
    (l l' : List (Int × List (Fl K) × List (Fl K))) :
    runAll d (l ++ l') = match runAll d l with
      | (d', some e) => (d', some e)
      | (d', none) => runAll d' l' := by
  induction l generalizing d with
  | nil => rfl
  | cons f l ih =>
    simp only [List.cons_append, runAll]
    rcases addLoop f.1 f.2.1 f.2.2 d with ⟨d', _ | e⟩
    · exact ih d'
    · rfl

theorem forall₂_size {K : Type} [Field K] [LinearOrder K] {n : ℕ}
    {frames : List (Int × List (Fl K) × List (Fl K))} {d d' : Dict String (MolRelax K)}
    (hn : ∀ p ∈ d, p.2.size = n) (hf : ∀ f ∈ frames, f.2.1.length = n ∧ f.2.2.length = n)
    (h : runAll d frames = (d', none)) : ∀ p ∈ d', p.2.size = n := by
  induction frames generalizing d with
  | nil =>
    simp only [runAll, Prod.mk.injEq, and_true] at h
    subst h
    exact hn
  | cons f frames ih =>
    obtain ⟨h1, h2⟩ := hf f (by simp)
    obtain ⟨d1, e1, e2⟩ := addLoop_ok n f.1 f.2.1 f.2.2 h1 h2 d hn
    simp only [runAll, e1] at h
    refine ih ?_ (fun g hg => hf g (List.mem_cons_of_mem _ hg)) h
    intro p hp
    clear h ih e1 hn
    induction e2 with
    | nil => simp at hp
    | cons h _ ih =>
      rcases List.mem_cons.1 hp with rfl | hp
      · exact h.2.1
      · exact ih hp

section
variable {N : ℕ} (b : Box) (t : ℕ → ℤ) (s : ℕ → Fin N → V3) (o : ℕ → Option (Fin N → Quat))

/-- Time, displacements and rotations that the relaxations are given with frame `i`. -/
noncomputable def seen (i : ℕ) : ℤ × List (Fl ℝ) × List (Fl ℝ) :=
  (t i - t 0, List.ofFn (fun m => some (norm3 (sumT b (held s) (i + 1) m))),
    List.ofFn (fun m => some (norm3 (sumR (held o) (i + 1) m))))

/-- The relaxations after `n` frames. -/
noncomputable def relAfter (κ : ℝ) (n : ℕ) : Relx :=
  ⟨t 0, ⟨b, List.ofFn (sumT b (held s) n), List.ofFn (sumR (held o) n), List.ofFn (held s n),
    (held o n).map List.ofFn⟩, N, κ,
    (runAll (setMolRelax N [] (defaults (Real.pi / (2 * κ)) Real.pi)).1
      ((List.range n).map (seen b t s o))).1⟩

variable {b t s o}

theorem default_ok (N : ℕ) {κ : ℝ} (hκ : 0 < κ) :
    (setMolRelax N [] (defaults (Real.pi / (2 * κ)) Real.pi)).2 = none ∧
    ∀ p ∈ (setMolRelax N [] (defaults (Real.pi / (2 * κ)) Real.pi)).1, p.2.size = N := by
  have hd : 0 ≤ Real.pi / (2 * κ) := by have := Real.pi_pos; positivity
  rw [defaults_dict N [] _ _ hd Real.pi_pos.le]
  refine ⟨rfl, ?_⟩
  simp [MolRelax.size, First.new, Last.new]

theorem runAll_seen {κ : ℝ} (hκ : 0 < κ) (n : ℕ) :
    ∃ d, runAll (setMolRelax N [] (defaults (Real.pi / (2 * κ)) Real.pi)).1
      ((List.range n).map (seen b t s o)) = (d, none) ∧ ∀ p ∈ d, p.2.size = N := by
  have hf : ∀ f ∈ (List.range n).map (seen b t s o), f.2.1.length = N ∧ f.2.2.length = N := by
    intro f hf
    obtain ⟨i, _, rfl⟩ := List.mem_map.1 hf
    simp [seen]
  obtain ⟨d, h1, _⟩ := runAll_ok N ((List.range n).map (seen b t s o)) _ (default_ok N hκ).2 hf
  exact ⟨d, h1, forall₂_size (default_ok N hκ).2 hf h1⟩

theorem relAfter_add (ho : Motion.Unit o) {κ : ℝ} (hκ : 0 < κ) (n : ℕ) :
    (relAfter b t s o κ n).add (t n) (List.ofFn (s n)) ((o n).map List.ofFn) =
      (relAfter b t s o κ (n + 1), none) := by
  have ho' := held_unit ho
  unfold Relx.add
  have hm : (relAfter b t s o κ n).motion.add (List.ofFn (s n)) ((o n).map List.ofFn) =
      ((relAfter b t s o κ (n + 1)).motion, none) := by
    have := add_dynAfter b none none 0 0 (held s) (held o) ho' n
    unfold Dyn.add at this
    simp only [Prod.mk.injEq, Dyn.mk.injEq, dynAfter, true_and, and_true] at this
    exact Prod.ext this.1 this.2
  rw [hm]
  obtain ⟨d, h1, h2⟩ := runAll_seen (b := b) (t := t) (s := s) (o := o) hκ n
  obtain ⟨d', h3, _⟩ := runAll_seen (b := b) (t := t) (s := s) (o := o) hκ (n + 1)
  have h4 := h3
  rw [List.range_succ, List.map_append, runAll_append, h1] at h4
  simp only [List.map_cons, List.map_nil, runAll] at h4
  have e1 : (relAfter b t s o κ n).relax = d := by simp [relAfter, h1]
  have e2 : (relAfter b t s o κ (n + 1)).relax = d' := by simp [relAfter, h3]
  have e3 : addLoop (t n - (relAfter b t s o κ n).init)
      ((relAfter b t s o κ (n + 1)).motion.deltaT.map (fun v => some (norm3 v)))
      ((relAfter b t s o κ (n + 1)).motion.deltaR.map (fun v => some (norm3 v)))
      (relAfter b t s o κ n).relax = (d', none) := by
    rw [e1]
    have hseen : seen b t s o n = (t n - t 0,
      (List.ofFn (sumT b (held s) (n + 1))).map (fun v => some (norm3 v)),
      (List.ofFn (sumR (held o) (n + 1))).map (fun v => some (norm3 v))) := by
      simp only [seen, map_ofFn']
    rw [hseen] at h4
    simp only at h4
    show addLoop (t n - t 0) _ _ d = _
    unfold relAfter
    simp only
    split at h4
    · cases h4
    · rename_i d'' he
      rw [he]
      exact h4
  simp only [e3, Prod.mk.injEq, and_true]
  rw [← e2]
  rfl

variable {ν : Type} {a : Args} {vars : Except PyErr ν} {box : ℕ → List ℝ}

/-- The wave number that the relaxations of the keyframe use. -/
def WaveIs (a : Args) (b : Box) (pos : List V3) (κ : ℝ) : Prop :=
  waveOf a.calcWave b pos a.wave = .ok κ

theorem newDyn_gf (hN : 0 < N) (hb : createFreudBox (box 0) (is2d (some a.mol)) = .ok b)
    (ho : Motion.Unit o) : (env a vars).newDyn (gf t box s o 0) =
      .ok (dynAfter b (some a.mol) a.wave 360 (t 0) (held s) (held o) 0) := by
  have h := new_track hN hb a.wave 360 (t 0) (held s) (held o) (held_unit ho) 0
  simp only [frames, frame] at h
  simp only [env, gf]
  revert h
  show (match Dyn.new (t 0) (box 0) (List.ofFn (s 0)) ((o 0).map List.ofFn) (some a.mol) a.wave 360
    with | .ok d => addFrames d [] | .error e => .error e) = _ → _
  cases Dyn.new (t 0) (box 0) (List.ofFn (s 0)) ((o 0).map List.ofFn) (some a.mol) a.wave 360 with
  | error e => intro h; cases h
  | ok d => intro h; exact h

theorem newRelax_gf (hN : 0 < N) (hb : createFreudBox (box 0) (is2d (some a.mol)) = .ok b)
    {κ : ℝ} (hw : WaveIs a b (List.ofFn (s 0)) κ) (hκ : 0 < κ) :
    (env a vars).newRelax (gf t box s o 0) = .ok (relAfter b t s o κ 0) := by
  simp only [env, gf, Relx.new]
  have hb' : createFreudBox (box 0) (decide (a.mol.dimensions = 2)) = .ok b := hb
  rw [hb']
  have hT : Tracked.new b (List.ofFn (s 0)) ((o 0).map List.ofFn) =
      .ok (relAfter b t s o κ 0).motion := by
    have e0 : List.ofFn (fun _ : Fin N => (0 : V3)) = (List.ofFn (s 0)).map (fun _ => 0) := by
      rw [map_ofFn']
    unfold Tracked.new relAfter
    have z1 : sumT b (held s) 0 = fun _ => 0 := by funext m; simp [sumT]
    have z2 : sumR (held o) 0 = fun _ => 0 := by funext m; simp [sumR]
    simp only [z1, z2, e0]
    cases h0 : o 0 with
    | none => simp [held, h0]
    | some q => simp [held, h0, List.length_ofFn, Nat.pos_iff_ne_zero.1 hN]
  simp only [hT]
  unfold WaveIs at hw
  rw [hw]
  simp only [if_neg hκ.ne', List.length_ofFn]
  obtain ⟨h1, h2⟩ := default_ok N hκ
  generalize hd : setMolRelax N [] (defaults (Real.pi / (2 * κ)) Real.pi) = r at h1
  obtain ⟨d, e⟩ := r
  simp only at h1
  subst h1
  simp [relAfter, hd, runAll]

/-- The trackers of a keyframe after the frames `0`, …, `n` of a trajectory. -/
theorem solo_traj (hN : 0 < N) (hb : createFreudBox (box 0) (is2d (some a.mol)) = .ok b)
    (ho : Motion.Unit o) {κ : ℝ} (hw : WaveIs a b (List.ofFn (s 0)) κ) (hκ : 0 < κ)
    (hdef : a.relaxations = none) (n : ℕ) (row : ℕ → Dict Quantity Val)
    (hrow : ∀ i ≤ n, (dynAfter b (some a.mol) a.wave 360 (t 0) (held s) (held o) (i + 1)).quantities
      a.argsort (t i) a.scattering = .ok (row i)) :
    solo (env a vars) (gframes t box s o n) =
      some ((dynAfter b (some a.mol) a.wave 360 (t 0) (held s) (held o) (n + 1),
        relAfter b t s o κ (n + 1)), (List.range (n + 1)).map row) := by
  have hstep : ∀ i ≤ n, soloStep (env a vars)
      (dynAfter b (some a.mol) a.wave 360 (t 0) (held s) (held o) i, relAfter b t s o κ i)
      (gf t box s o i) =
      ((dynAfter b (some a.mol) a.wave 360 (t 0) (held s) (held o) (i + 1),
        relAfter b t s o κ (i + 1)), some (row i)) := by
    intro i hi
    unfold soloStep
    have hc : (env a vars).computeAll
        (dynAfter b (some a.mol) a.wave 360 (t 0) (held s) (held o) i) (gf t box s o i) =
        (dynAfter b (some a.mol) a.wave 360 (t 0) (held s) (held o) (i + 1), .ok (row i)) := by
      rw [← hrow i hi]
      exact computeAll_dynAfter a.argsort b (some a.mol) a.wave 360 (t 0) (t i) (held s) (held o)
        (held_unit ho) i a.scattering
    have hr : (env a vars).relaxAdd (relAfter b t s o κ i) (gf t box s o i) =
        (relAfter b t s o κ (i + 1), none) := relAfter_add ho hκ i
    have hcu : (env a vars).custom = none := by simp [env, hdef]
    simp only [hcu, hc, hr]
  induction n with
  | zero =>
    have : gframes t box s o 0 = [gf t box s o 0] := rfl
    rw [this, solo_one (env a vars) _ _ _ (newDyn_gf hN hb ho) (newRelax_gf hN hb hw hκ),
      hstep 0 le_rfl]
    rfl
  | succ n ih =>
    have e : gframes t box s o (n + 1) = gframes t box s o n ++ [gf t box s o (n + 1)] := by
      unfold gframes
      rw [List.range_succ, List.map_append]
      rfl
    rw [e, solo_snoc (env a vars) _ _ _ (ih (fun i hi => hrow i (by omega))
      (fun i hi => hstep i (by omega))), hstep (n + 1) le_rfl, List.range_succ (n := n + 1),
      List.map_append]
    rfl

/-- Ten molecules or more: all rows exist. -/
theorem rows_exist (hN : 10 ≤ N) (b : Box) (t0 : ℤ) (t : ℕ → ℤ) (s : ℕ → Fin N → V3)
    (o : ℕ → Option (Fin N → Quat)) (hw : a.wave ≠ some 0) (hmol : a.mol.positions ≠ []) (i : ℕ) :
    ∃ row, (dynAfter b (some a.mol) a.wave 360 t0 s o i).quantities a.argsort (t i)
      a.scattering = .ok row := by
  apply quantities_succeeds (N := N) a.argsort (t i) a.scattering hN rfl rfl rfl
  · simp [dynAfter]
  · simpa [dynAfter] using hw
  · simpa [dynAfter] using hmol

end

end Verif.Pipeline
