import Verif.Pipeline.Props
/-!
# Lemmas on frames that are skipped because of an exception
-/

namespace Verif.Pipeline

open Verif.Motion Verif.Dynamics Verif.Relax Verif.Gsd Verif.Process Verif.Cache Quaternion

variable {N : ℕ}

/-- Adding a frame with an orientation that is not normalised: the displacement is counted, the previous
position stays. -/
theorem add_unnormalised (b : Box) (dT dR s s' : Fin N → V3) (q q' : Fin N → Quat)
    (h : ∀ m, normSq (q m) = 1) (h' : ¬ ∀ m, normSq (q' m) = 1) :
    Tracked.add ⟨b, List.ofFn dT, List.ofFn dR, List.ofFn s, some (List.ofFn q)⟩ (List.ofFn s')
        (some (List.ofFn q')) =
      (⟨b, List.ofFn (fun m => dT m - b.wrap (s m - s' m)), List.ofFn dR, List.ofFn s,
        some (List.ofFn q)⟩, some .valueError) := by
  unfold Tracked.add
  rw [transAdd_ofFn]
  have : rotAdd ⟨b, List.ofFn dT, List.ofFn dR, List.ofFn s, some (List.ofFn q)⟩
      (some (List.ofFn q')) = .error .valueError := by
    simp only [rotAdd, rotStep, bcast_ofFn, toEulerAll]
    rw [if_neg]
    intro hall
    apply h'
    intro m
    have := hall _ (List.mem_ofFn.2 ⟨m, rfl⟩)
    simpa [map_mul, h m] using this
  rw [this]

theorem bcast_mismatch {α β γ : Type} (f : α → β → γ) (a : List α) (b : List β)
    (h : a.length ≠ b.length) (ha : a.length ≠ 1) (hb : b.length ≠ 1) :
    bcast f a b = .error .valueError := by
  unfold bcast
  rw [if_neg h]
  split
  · simp at ha
  · simp at hb
  · rfl

/-- Adding a frame with another number of positions changes nothing. -/
theorem add_mismatch (m : Tracked) (position : List V3) (orientation : Option (List Quat))
    (h : m.prevPos.length ≠ position.length) (h1 : m.prevPos.length ≠ 1) (h2 : position.length ≠ 1) :
    m.add position orientation = (m, some .valueError) := by
  unfold Tracked.add transAdd
  rw [bcast_mismatch _ _ _ h h1 h2]

theorem add_prevPos (m : Tracked) (position : List V3) (orientation : Option (List Quat)) :
    (m.add position orientation).1.prevPos = m.prevPos ∨
    (m.add position orientation).1.prevPos = position := by
  unfold Tracked.add
  split
  · exact Or.inl rfl
  · split
    · exact Or.inl rfl
    · exact Or.inr rfl

variable {ν : Type} {a : Args} {vars : Except PyErr ν}

theorem computeAll_prevPos (d : Dyn) (f : GFrame PData) :
    ((env a vars).computeAll d f).1.motion.prevPos = d.motion.prevPos ∨
    ((env a vars).computeAll d f).1.motion.prevPos = f.data.position := by
  have := add_prevPos d.motion f.data.position f.data.orientation
  simp only [env, Dyn.computeAll, Dyn.add]
  split
  · rename_i heq
    simp only [Prod.mk.injEq] at heq
    rw [← heq.1]
    exact this
  · rename_i heq
    simp only [Prod.mk.injEq] at heq
    rw [← heq.1]
    exact this

theorem soloStep_dyn (hdef : a.relaxations = none) (dr : Dyn × Relx) (f : GFrame PData) :
    (soloStep (env a vars) dr f).1.1 = ((env a vars).computeAll dr.1 f).1 := by
  unfold soloStep
  have hcu : (env a vars).custom = none := by simp [env, hdef]
  simp only [hcu]
  split <;> rename_i heq <;> rw [heq]
  split <;> rfl

theorem soloStep_error (hdef : a.relaxations = none) {d d' : Dyn} (r : Relx) {f : GFrame PData} {e : PyErr}
    (h : (env a vars).computeAll d f = (d', .error e)) :
    soloStep (env a vars) (d, r) f = ((d', r), none) := by
  unfold soloStep
  have hcu : (env a vars).custom = none := by simp [env, hdef]
  simp only [hcu, h]

theorem soloStep_ok (hdef : a.relaxations = none) {d d' : Dyn} {r r' : Relx} {f : GFrame PData}
    {row : Dict Quantity Val} (h : (env a vars).computeAll d f = (d', .ok row))
    (h' : (env a vars).relaxAdd r f = (r', none)) :
    soloStep (env a vars) (d, r) f = ((d', r'), some row) := by
  unfold soloStep
  have hcu : (env a vars).custom = none := by simp [env, hdef]
  simp only [hcu, h, h']

theorem soloStep_mismatch (hdef : a.relaxations = none) (dr : Dyn × Relx) (f : GFrame PData)
    (h : dr.1.motion.prevPos.length ≠ f.data.position.length) (h1 : dr.1.motion.prevPos.length ≠ 1)
    (h2 : f.data.position.length ≠ 1) : soloStep (env a vars) dr f = (dr, none) := by
  unfold soloStep
  have hcu : (env a vars).custom = none := by simp [env, hdef]
  have hc : (env a vars).computeAll dr.1 f = (dr.1, .error .valueError) := by
    simp only [env, Dyn.computeAll, Dyn.add, add_mismatch _ _ _ h h1 h2]
  simp only [hcu, hc]

/-- The loop of `solo` skips frames with another number of positions. -/
theorem loop_mismatch (hdef : a.relaxations = none) {n : ℕ} (hn : n ≠ 1) (fs : List (GFrame PData))
    (hfs : ∀ f ∈ fs, f.data.position.length ≠ 1)
    (s : (Dyn × Relx) × List (Dict Quantity Val)) (hs : s.1.1.motion.prevPos.length = n) :
    fs.foldl (fun s f => ((soloStep (env a vars) s.1 f).1, s.2 ++ (soloStep (env a vars) s.1 f).2.toList)) s =
      (fs.filter (fun f => f.data.position.length = n)).foldl
        (fun s f => ((soloStep (env a vars) s.1 f).1, s.2 ++ (soloStep (env a vars) s.1 f).2.toList)) s := by
  induction fs generalizing s with
  | nil => rfl
  | cons f fs ih =>
    have ih' := ih (fun g hg => hfs g (List.mem_cons_of_mem _ hg))
    have hf := hfs f (by simp)
    by_cases h : f.data.position.length = n
    · rw [List.filter_cons_of_pos (by simpa using h), List.foldl_cons, List.foldl_cons]
      apply ih'
      show (soloStep (env a vars) s.1 f).1.1.motion.prevPos.length = n
      rw [soloStep_dyn hdef]
      rcases computeAll_prevPos (a := a) (vars := vars) s.1.1 f with e | e <;> rw [e]
      · exact hs
      · exact h
    · rw [List.filter_cons_of_neg (by simpa using h), List.foldl_cons]
      have e := soloStep_mismatch (vars := vars) hdef s.1 f (by rw [hs]; exact fun e => h e.symm)
        (by rw [hs]; exact hn) hf
      rw [e]
      simpa using ih' s hs

theorem newDyn_prevPos {f : GFrame PData} {d : Dyn} (h : (env a vars).newDyn f = .ok d) :
    d.motion.prevPos = f.data.position := by
  simp only [env, Dyn.new] at h
  split at h
  · cases h
  · split at h
    · cases h
    · rename_i b _
      unfold Tracked.new at h
      cases ho : f.data.orientation with
      | none => simp only [ho] at h; cases h; rfl
      | some o =>
        simp only [ho] at h
        by_cases h0 : o.length = 0
        · simp [h0] at h
        · simp only [h0, if_false] at h; cases h; rfl

/-- The trackers of a keyframe without the frames with another number of positions. -/
theorem solo_mismatch (hdef : a.relaxations = none) (f : GFrame PData) (fs : List (GFrame PData))
    (hn : f.data.position.length ≠ 1) (hfs : ∀ g ∈ fs, g.data.position.length ≠ 1) :
    solo (env a vars) (f :: fs) =
      solo (env a vars) (f :: fs.filter (fun g => g.data.position.length = f.data.position.length)) := by
  simp only [solo]
  cases hd : (env a vars).newDyn f with
  | error e => rfl
  | ok d =>
    cases hr : (env a vars).newRelax f with
    | error e => rfl
    | ok r =>
      simp only [Option.some.injEq]
      rw [List.foldl_cons, List.foldl_cons]
      apply loop_mismatch hdef hn _ hfs
      show (soloStep (env a vars) (d, r) f).1.1.motion.prevPos.length = _
      rw [soloStep_dyn hdef]
      rcases computeAll_prevPos (a := a) (vars := vars) d f with e | e <;> rw [e]
      rw [newDyn_prevPos hd]

/-- A frame of `N` molecules with orientations. -/
def qf (x : ℤ × List ℝ × (Fin N → V3) × (Fin N → Quat)) : GFrame PData :=
  ⟨x.1, ⟨x.2.1, List.ofFn x.2.2.1, some (List.ofFn x.2.2.2)⟩⟩

/-- All orientations of the frame have norm one. -/
def Normalised (x : ℤ × List ℝ × (Fin N → V3) × (Fin N → Quat)) : Prop :=
  ∀ m, normSq (x.2.2.2 m) = 1

/-- Dynamics with displacement `dT`, rotation `dR` and previous configuration `s`, `q`. -/
noncomputable def dynWith (a : Args) (b : Box) (t0 : ℤ) (dT dR s : Fin N → V3) (q : Fin N → Quat) : Dyn :=
  ⟨some a.mol.positions, ⟨b, List.ofFn dT, List.ofFn dR, List.ofFn s, some (List.ofFn q)⟩, t0, N, a.wave,
    a.wave.map (fun k => createWaveVector k 360)⟩

theorem computeAll_with (b : Box) (t0 : ℤ) (dT dR s : Fin N → V3) (q : Fin N → Quat)
    (hq : ∀ m, normSq (q m) = 1) (x : ℤ × List ℝ × (Fin N → V3) × (Fin N → Quat)) (hx : Normalised x) :
    (env a vars).computeAll (dynWith a b t0 dT dR s q) (qf x) =
      (dynWith a b t0 (fun m => dT m - b.wrap (s m - x.2.2.1 m))
        (fun m => dR m + toEuler (x.2.2.2 m * (q m)⁻¹)) x.2.2.1 x.2.2.2,
       (dynWith a b t0 (fun m => dT m - b.wrap (s m - x.2.2.1 m))
        (fun m => dR m + toEuler (x.2.2.2 m * (q m)⁻¹)) x.2.2.1 x.2.2.2).quantities a.argsort x.1
          a.scattering) := by
  have h := Motion.add_ofFn b dT dR s x.2.2.1 (some q) (some x.2.2.2)
    (by intro p hp; cases hp; exact hq) (by intro p hp; cases hp; exact hx)
  simp only [Option.map_some, rotInc] at h
  simp only [env, Dyn.computeAll, Dyn.add, dynWith, qf, h]

theorem computeAll_without (b : Box) (t0 : ℤ) (dT dR s : Fin N → V3) (q : Fin N → Quat)
    (hq : ∀ m, normSq (q m) = 1) (x : ℤ × List ℝ × (Fin N → V3) × (Fin N → Quat)) (hx : ¬ Normalised x) :
    (env a vars).computeAll (dynWith a b t0 dT dR s q) (qf x) =
      (dynWith a b t0 (fun m => dT m - b.wrap (s m - x.2.2.1 m)) dR s q, .error .valueError) := by
  have h := add_unnormalised b dT dR s x.2.2.1 q x.2.2.2 hq hx
  simp only [env, Dyn.computeAll, Dyn.add, dynWith, qf, h]

theorem quantities_with (hN : 10 ≤ N) (hw : a.wave ≠ some 0) (hmol : a.mol.positions ≠ []) (b : Box)
    (t0 t : ℤ) (dT dR s : Fin N → V3) (q : Fin N → Quat) :
    ∃ row, (dynWith a b t0 dT dR s q).quantities a.argsort t a.scattering = .ok row := by
  apply quantities_succeeds (N := N) a.argsort t a.scattering hN rfl rfl rfl
  · simp [dynWith]
  · simpa [dynWith] using hw
  · simpa [dynWith] using hmol

open Classical in
/-- The relaxations of the loop of `solo` are those without the frames which are not normalised. -/
theorem loop_normalised (hdef : a.relaxations = none) (hN : 10 ≤ N) (hw : a.wave ≠ some 0)
    (hmol : a.mol.positions ≠ []) (b : Box) (t0 : ℤ)
    (xs : List (ℤ × List ℝ × (Fin N → V3) × (Fin N → Quat))) (r : Relx) (dT dT' dR s : Fin N → V3)
    (q : Fin N → Quat) (hq : ∀ m, normSq (q m) = 1) (l l' : List (Dict Quantity Val)) :
    ((xs.map qf).foldl (fun s f => ((soloStep (env a vars) s.1 f).1,
        s.2 ++ (soloStep (env a vars) s.1 f).2.toList)) ((dynWith a b t0 dT dR s q, r), l)).1.2 =
      (((xs.filter (fun x => Normalised x)).map qf).foldl (fun s f => ((soloStep (env a vars) s.1 f).1,
        s.2 ++ (soloStep (env a vars) s.1 f).2.toList)) ((dynWith a b t0 dT' dR s q, r), l')).1.2 := by
  have hcu : (env a vars).custom = none := by simp [env, hdef]
  induction xs generalizing r dT dT' dR s q l l' with
  | nil => rfl
  | cons x xs ih =>
    by_cases hx : Normalised x
    · rw [List.filter_cons_of_pos (by simpa using hx), List.map_cons, List.map_cons, List.foldl_cons,
        List.foldl_cons]
      have step : ∀ dT : Fin N → V3, ∃ row, soloStep (env a vars) (dynWith a b t0 dT dR s q, r) (qf x) =
          ((dynWith a b t0 (fun m => dT m - b.wrap (s m - x.2.2.1 m))
            (fun m => dR m + toEuler (x.2.2.2 m * (q m)⁻¹)) x.2.2.1 x.2.2.2,
            ((env a vars).relaxAdd r (qf x)).1), row) := by
        intro dT
        obtain ⟨row, hrow⟩ := quantities_with (a := a) hN hw hmol b t0 x.1
          (fun m => dT m - b.wrap (s m - x.2.2.1 m))
            (fun m => dR m + toEuler (x.2.2.2 m * (q m)⁻¹)) x.2.2.1 x.2.2.2
        unfold soloStep
        simp only [hcu, computeAll_with b t0 dT dR s q hq x hx, hrow]
        generalize (env a vars).relaxAdd r (qf x) = res
        obtain ⟨r', e⟩ := res
        cases e
        · exact ⟨_, rfl⟩
        · exact ⟨_, rfl⟩
      obtain ⟨row, h1⟩ := step dT
      obtain ⟨row', h2⟩ := step dT'
      rw [h1, h2]
      exact ih _ _ _ _ _ _ hx _ _
    · rw [List.filter_cons_of_neg (by simpa using hx), List.map_cons, List.foldl_cons]
      have e : soloStep (env a vars) (dynWith a b t0 dT dR s q, r) (qf x) =
          ((dynWith a b t0 (fun m => dT m - b.wrap (s m - x.2.2.1 m)) dR s q, r), none) := by
        unfold soloStep
        simp only [hcu, computeAll_without b t0 dT dR s q hq x hx]
      rw [e]
      exact ih _ _ _ _ _ _ hq _ _

theorem newDyn_with (hN : 0 < N) {x : ℤ × List ℝ × (Fin N → V3) × (Fin N → Quat)} {d : Dyn}
    (h : (env a vars).newDyn (qf x) = .ok d) :
    ∃ b, d = dynWith a b x.1 (fun _ => 0) (fun _ => 0) x.2.2.1 x.2.2.2 := by
  simp only [env, Dyn.new, qf, List.length_ofFn] at h
  rw [if_neg (by omega)] at h
  split at h
  · cases h
  · rename_i b _
    simp only [Tracked.new, List.length_ofFn] at h
    rw [if_neg (by omega)] at h
    refine ⟨b, ?_⟩
    simp only [Except.ok.injEq] at h
    subst h
    simp only [dynWith, map_ofFn', Option.map_some]

open Classical in
/-- The molecular relaxations of a keyframe are those without the frames which are not normalised. -/
theorem summary_normalised (hdef : a.relaxations = none) (hN : 10 ≤ N) (hw : a.wave ≠ some 0)
    (hmol : a.mol.positions ≠ []) (x : ℤ × List ℝ × (Fin N → V3) × (Fin N → Quat)) (hx : Normalised x)
    (xs : List (ℤ × List ℝ × (Fin N → V3) × (Fin N → Quat))) :
    soloSummary (env a vars) ((x :: xs).map qf) =
      soloSummary (env a vars) ((x :: xs.filter (fun x => Normalised x)).map qf) := by
  have h0 : x :: xs.filter (fun x => Normalised x) = (x :: xs).filter (fun x => Normalised x) := by
    rw [List.filter_cons_of_pos (by simpa using hx)]
  unfold soloSummary
  simp only [List.map_cons, solo]
  cases hd : (env a vars).newDyn (qf x) with
  | error e => rfl
  | ok d =>
    cases hr : (env a vars).newRelax (qf x) with
    | error e => rfl
    | ok r =>
      simp only [Option.map_some, Option.getD_some]
      obtain ⟨b, rfl⟩ := newDyn_with (by omega) hd
      have := loop_normalised (vars := vars) hdef hN hw hmol b x.1 (x :: xs) r (fun _ => 0) (fun _ => 0)
        (fun _ => 0) x.2.2.1 x.2.2.2 hx [] []
      rw [← h0] at this
      exact congrArg _ this

end Verif.Pipeline
