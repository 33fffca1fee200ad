import Verif.Pipeline.Lemmas
/-!
# Runs that cannot be ended by an exception
-/

namespace Verif.Pipeline

open Verif.Motion Verif.Dynamics Verif.Relax Verif.Gsd Verif.Process Verif.Cache

section
variable {ι Φ D R ρ σ ν : Type} [DecidableEq ι]

/-- Trackers that, on frames with `ok`, keep `I` and raise nothing but what is handled. -/
structure Keeps (E : Env Φ D R ρ σ ν) (ok : Φ → Prop) (I : D → Prop) : Prop where
  newDyn : ∀ f, ok f → ∃ d, E.newDyn f = .ok d ∧ I d
  newRelax : ∀ f, ok f → ∃ r, E.newRelax f = .ok r
  custom : ∀ set, E.custom = some set → ∀ r, (set r).2 = none
  keep : ∀ d f, I d → I (E.computeAll d f).1
  computeAll : ∀ d f e, I d → (E.computeAll d f).2 = .error e → e = .valueError
  relaxAdd : ∀ r f e, (E.relaxAdd r f).2 = some e → e = .valueError ∨ e = .runtimeError
  simVars : ∃ v, E.simVars = .ok v

theorem keeps_visit (E : Env Φ D R ρ σ ν) {ok : Φ → Prop} {I : D → Prop} (hE : Keeps E ok I)
    (kf : Dict ι (D × R)) (hkf : ∀ k dr, Dict.get? kf k = some dr → I dr.1) (k : ι) (f : Φ)
    (hf : ok f) : ∃ kf' o, visit E kf k f = (kf', .ok o) ∧ kf' ≠ [] ∧
      ∀ k dr, Dict.get? kf' k = some dr → I dr.1 := by
  obtain ⟨d0, hd, hI0⟩ := hE.newDyn f hf
  obtain ⟨r0, hr⟩ := hE.newRelax f hf
  obtain ⟨v, hv⟩ := hE.simVars
  have hset : ∀ (d : Dict ι (D × R)) x, Dict.set d k x ≠ [] := by
    intro d x
    cases d with
    | nil => simp [Dict.set]
    | cons p d => simp only [Dict.set]; split <;> simp
  have hkf1 : ∀ k' dr, Dict.get? (Dict.setdefault kf k (d0, r0)) k' = some dr → I dr.1 := by
    intro k' dr h
    unfold Dict.setdefault at h
    split at h
    · exact hkf k' dr h
    · rw [Dict.get?_set] at h
      split at h
      · obtain rfl := Option.some.inj h
        exact hI0
      · exact hkf k' dr h
  have hdr : I ((Dict.get? (Dict.setdefault kf k (d0, r0)) k).getD (d0, r0)).1 := by
    cases h : Dict.get? (Dict.setdefault kf k (d0, r0)) k with
    | none => exact hI0
    | some dr => exact hkf1 k dr h
  have hfin : ∀ x : D × R, I x.1 → ∀ k' dr,
      Dict.get? (Dict.set (Dict.setdefault kf k (d0, r0)) k x) k' = some dr → I dr.1 := by
    intro x hx k' dr h
    rw [Dict.get?_set] at h
    split at h
    · obtain rfl := Option.some.inj h
      exact hx
    · exact hkf1 k' dr h
  have hupd : ∀ dr : D × R, I dr.1 →
      ∃ dr' o, update (ι := ι) E k dr f = (dr', .ok o) ∧ I dr'.1 := by
    intro dr hdr
    unfold update
    have h0 := hE.keep dr.1 f hdr
    have h1 := fun e => hE.computeAll dr.1 f e hdr
    rcases hce : E.computeAll dr.1 f with ⟨d, e | row⟩
    · obtain rfl := h1 e (by rw [hce])
      rw [hce] at h0
      exact ⟨(d, dr.2), none, rfl, h0⟩
    · have h2 := hE.relaxAdd dr.2 f
      rw [hce] at h0
      simp only
      rcases hre : E.relaxAdd dr.2 f with ⟨r, _ | e⟩
      · simp only [hv]
        exact ⟨_, _, rfl, h0⟩
      · rcases h2 e (by rw [hre]) with rfl | rfl
        · exact ⟨(d, r), none, rfl, h0⟩
        · exact ⟨(d, r), none, rfl, h0⟩
  unfold visit
  simp only [hd, hr]
  generalize (Dict.get? (Dict.setdefault kf k (d0, r0)) k).getD (d0, r0) = dr at hdr ⊢
  cases hc : E.custom with
  | none =>
    simp only
    obtain ⟨dr', o, ho, hI⟩ := hupd (dr.1, dr.2) hdr
    rw [ho]
    exact ⟨_, _, rfl, hset _ _, hfin dr' hI⟩
  | some set =>
    have h3 := hE.custom set hc dr.2
    simp only
    rcases hs : set dr.2 with ⟨r1, _ | e⟩
    · simp only
      obtain ⟨dr', o, ho, hI⟩ := hupd (dr.1, r1) hdr
      rw [ho]
      exact ⟨_, _, rfl, hset _ _, hfin dr' hI⟩
    · rw [hs] at h3
      simp at h3

theorem keeps_core (E : Env Φ D R ρ σ ν) {ok : Φ → Prop} {I : D → Prop} (hE : Keeps E ok I) :
    ∀ (vs : List (ι × Φ)) (kf : Dict ι (D × R)),
    (∀ k dr, Dict.get? kf k = some dr → I dr.1) → (∀ v ∈ vs, ok v.2) →
    (coreRun E vs kf).2 = none ∧ (kf ≠ [] ∨ vs ≠ [] → (coreRun E vs kf).1.1 ≠ []) := by
  intro vs
  induction vs with
  | nil => intro kf _ _; exact ⟨rfl, fun h => by simpa [coreRun] using h⟩
  | cons v vs ih =>
    intro kf hkf h
    obtain ⟨kf', o, hv, hne, hI⟩ := keeps_visit E hE kf hkf v.1 v.2 (h v (by simp))
    obtain ⟨h1, h2⟩ := ih kf' hI fun u hu => h u (List.mem_cons_of_mem _ hu)
    simp only [coreRun, hv]
    cases o with
    | none => exact ⟨h1, fun _ => h2 (Or.inl hne)⟩
    | some row => exact ⟨h1, fun _ => h2 (Or.inl hne)⟩

end

/-- What the dynamics of ten molecules or more keep. -/
def Sized (d : Dyn) : Prop :=
  ∃ N, 10 ≤ N ∧ d.motion.deltaT.length = N ∧ d.motion.deltaR.length = N ∧ d.numParticles = N ∧
    (d.waveNumber.isSome → d.waveVector.isSome) ∧ d.waveNumber ≠ some 0 ∧ d.molVector ≠ some []

theorem tracked_add_keeps (m : Tracked) (p : List V3) (o : Option (List Quat)) :
    (m.add p o).1.deltaT.length = m.deltaT.length ∧
    (m.add p o).1.deltaR.length = m.deltaR.length ∧
    ∀ e, (m.add p o).2 = some e → e = .valueError := by
  unfold Tracked.add
  cases hT : transAdd m p with
  | error e =>
    refine ⟨rfl, rfl, ?_⟩
    rintro e' h
    obtain rfl := Option.some.inj h
    unfold transAdd at hT
    split at hT
    · exact inplace_error hT
    · rename_i hb; cases hT; exact bcast_error hb
  | ok dT =>
    cases hR : rotAdd m o with
    | error e =>
      refine ⟨transAdd_length hT, rfl, ?_⟩
      rintro e' h
      obtain rfl := Option.some.inj h
      unfold rotAdd at hR
      split at hR
      · split at hR
        · exact inplace_error hR
        · rename_i hs
          cases hR
          unfold rotStep toEulerAll at hs
          split at hs
          · split at hs <;> cases hs
            rfl
          · rename_i hb; cases hs; exact bcast_error hb
      · cases hR
    | ok dR => exact ⟨transAdd_length hT, rotAdd_length hR, by simp⟩

theorem addLoop_error {K : Type} [Field K] [LinearOrder K] (t : ℤ) (a b : List (Fl K)) (e : PyErr) :
    ∀ d : Dict String (MolRelax K), (addLoop t a b d).2 = some e → e = .runtimeError := by
  intro d
  induction d with
  | nil => intro h; cases h
  | cons p d ih =>
    obtain ⟨name, r⟩ := p
    intro h
    simp only [addLoop] at h
    generalize (if r.kind = .rotation then b else a) = x at h
    cases hr : r.add t x with
    | error e' =>
      rw [hr] at h
      obtain rfl := Option.some.inj h
      cases r <;>
      · simp only [MolRelax.add, First.add, Last.add] at hr
        split at hr <;> cases hr
        rfl
    | ok r' =>
      rw [hr] at h
      exact ih h

/-- A frame from which trackers can be made: ten molecules, a box, orientations or none, and a wave
number. -/
def Usable (a : Args) (f : GFrame PData) : Prop :=
  10 ≤ f.data.position.length ∧ f.data.orientation ≠ some [] ∧
    ∃ b κ, createFreudBox f.data.box (decide (a.mol.dimensions = 2)) = .ok b ∧
      WaveIs a b f.data.position κ ∧ 0 < κ

theorem env_keeps {ν : Type} (a : Args) (v : ν) (hmol : a.mol.positions ≠ [])
    (hdef : ∀ defs, a.relaxations = some defs → ∀ n, (setMolRelax n [] defs).2 = none)
    (hw : a.wave ≠ some 0) :
    Keeps (env a (.ok v)) (Usable a) Sized where
  newDyn := by
    rintro f ⟨h1, h2, b, κ, hb, hκ, hpos⟩
    simp only [env, Dyn.new]
    rw [if_neg (by omega), hb]
    simp only
    have : ∃ m, Tracked.new b f.data.position f.data.orientation = .ok m ∧
        m.deltaT.length = f.data.position.length ∧ m.deltaR.length = f.data.position.length := by
      unfold Tracked.new
      cases ho : f.data.orientation with
      | none => exact ⟨_, rfl, by simp, by simp⟩
      | some o =>
        have hl : o.length ≠ 0 := by
          intro h0
          rw [List.length_eq_zero_iff] at h0
          exact h2 (by rw [ho, h0])
        simp only [if_neg hl]
        exact ⟨_, rfl, by simp, by simp⟩
    obtain ⟨m, hm, e1, e2⟩ := this
    rw [hm]
    refine ⟨_, rfl, f.data.position.length, h1, e1, e2, rfl, by simp, hw, ?_⟩
    simpa using hmol
  newRelax := by
    rintro f ⟨h1, h2, b, κ, hb, hκ, hpos⟩
    simp only [env, Relx.new]
    rw [hb]
    simp only
    have : ∃ m, Tracked.new b f.data.position f.data.orientation = .ok m := by
      unfold Tracked.new
      cases ho : f.data.orientation with
      | none => exact ⟨_, rfl⟩
      | some o =>
        have hl : o.length ≠ 0 := by
          intro h0
          rw [List.length_eq_zero_iff] at h0
          exact h2 (by rw [ho, h0])
        simp only [if_neg hl]
        exact ⟨_, rfl⟩
    obtain ⟨m, hm⟩ := this
    unfold WaveIs at hκ
    rw [hm, hκ]
    simp only [if_neg hpos.ne']
    obtain ⟨g1, -⟩ := default_ok f.data.position.length hpos
    generalize setMolRelax f.data.position.length [] (defaults (Real.pi / (2 * κ)) Real.pi) = r at g1
    obtain ⟨d, e⟩ := r
    simp only at g1
    subst g1
    exact ⟨_, rfl⟩
  custom := by
    intro set h r
    simp only [env, Option.map_eq_some_iff] at h
    obtain ⟨defs, hd, rfl⟩ := h
    exact hdef defs hd r.num
  keep := by
    rintro d f ⟨N, h⟩
    have hk := tracked_add_keeps d.motion f.data.position f.data.orientation
    have e : ((env a (.ok v)).computeAll d f).1 =
        { d with motion := (d.motion.add f.data.position f.data.orientation).1 } := by
      simp only [env, Dyn.computeAll, Dyn.add]
      cases (d.motion.add f.data.position f.data.orientation).2 <;> rfl
    rw [e]
    exact ⟨N, h.1, hk.1.trans h.2.1, hk.2.1.trans h.2.2.1, h.2.2.2⟩
  computeAll := by
    rintro d f e ⟨N, h⟩ he
    have hk := tracked_add_keeps d.motion f.data.position f.data.orientation
    simp only [env, Dyn.computeAll, Dyn.add] at he
    generalize d.motion.add f.data.position f.data.orientation = r at he hk
    obtain ⟨m, _ | e'⟩ := r
    · simp only at he hk
      obtain ⟨d1, hd1⟩ := exists_ofFn (hk.1.trans h.2.1)
      obtain ⟨d2, hd2⟩ := exists_ofFn (hk.2.1.trans h.2.2.1)
      obtain ⟨row, hrow⟩ := quantities_succeeds (D := { d with motion := m }) a.argsort f.timestep
        a.scattering h.1 hd1 hd2 h.2.2.2.1 h.2.2.2.2.1 h.2.2.2.2.2.1 h.2.2.2.2.2.2
      rw [hrow] at he
      cases he
    · simp only [Except.error.injEq] at he
      subst he
      exact hk.2.2 _ rfl
  relaxAdd := by
    intro r f e he
    have hk := tracked_add_keeps r.motion f.data.position f.data.orientation
    simp only [env, Relx.add] at he
    generalize r.motion.add f.data.position f.data.orientation = q at he hk
    obtain ⟨m, _ | e'⟩ := q
    · exact Or.inr (addLoop_error _ _ _ _ _ he)
    · simp only [Option.some.injEq] at he
      subst he
      exact Or.inl (hk.2.2 _ rfl)
  simVars := ⟨v, rfl⟩

end Verif.Pipeline
