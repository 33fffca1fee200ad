import Verif.Process.CrashLemmas
import Verif.Process.UnsignedSpec
/-!
# Helper lemmas for C117
-/

namespace Verif.Process

open Verif.Cache

variable {ι Φ D R ρ σ ν : Type} [DecidableEq ι] {E E' : Env Φ D R ρ σ ν} {stamp : Φ → Int}
  {start : D → Int} {begun : R → Int}

/-- Trackers begun at or before the step `t`. -/
def Begun (start : D → Int) (begun : R → Int) (t : Int) (dr : D × R) : Prop :=
  start dr.1 ≤ t ∧ begun dr.2 ≤ t

omit [DecidableEq ι] in
theorem update_same (h : Refuses E E' stamp start begun) (k : ι) (dr : D × R) (f : Φ)
    (hb : Begun start begun (stamp f) dr) : update E' k dr f = update E k dr f := by
  unfold update
  rw [h.after dr.1 f hb.1, h.afterRelax dr.2 f hb.2, h.simVars]

omit [DecidableEq ι] in
theorem update_begun (h : Refuses E E' stamp start begun) (k : ι) (dr : D × R) (f : Φ) :
    start (update E k dr f).1.1 = start dr.1 ∧ begun (update E k dr f).1.2 = begun dr.2 := by
  unfold update
  have h1 := h.start_keep dr.1 f
  have h2 := h.begun_keep dr.2 f
  rcases hc : E.computeAll dr.1 f with ⟨d, e | row⟩
  · rw [hc] at h1; exact ⟨h1, rfl⟩
  · rw [hc] at h1
    rcases ha : E.relaxAdd dr.2 f with ⟨r, e⟩
    rw [ha] at h2
    cases e with
    | some e => exact ⟨h1, h2⟩
    | none =>
      cases hs : E.simVars with
      | error e => exact ⟨h1, h2⟩
      | ok v => exact ⟨h1, h2⟩

theorem visit_same (h : Refuses E E' stamp start begun) (kf : Dict ι (D × R)) (k : ι) (f : Φ)
    (hb : ∀ dr, Dict.get? kf k = some dr → Begun start begun (stamp f) dr) :
    visit E' kf k f = visit E kf k f := by
  unfold visit
  rw [h.newDyn, h.newRelax, h.custom]
  cases hd : E.newDyn f with
  | error e => rfl
  | ok d0 =>
    cases hr : E.newRelax f with
    | error e => rfl
    | ok r0 =>
      have hg : (Dict.get? (Dict.setdefault kf k (d0, r0)) k).getD (d0, r0) =
          (Dict.get? kf k).getD (d0, r0) := by
        rw [Dict.get?_setdefault]
        simp
      simp only [hg]
      have hu : Begun start begun (stamp f) ((Dict.get? kf k).getD (d0, r0)) := by
        cases hk : Dict.get? kf k with
        | some dr => exact hb dr hk
        | none => exact ⟨(h.start_new f d0 hd).le, (h.begun_new f r0 hr).le⟩
      generalize (Dict.get? kf k).getD (d0, r0) = dr at hu ⊢
      cases hcust : E.custom with
      | none => simp only; rw [update_same h k _ f hu]
      | some set =>
        simp only
        have hs := h.begun_custom set hcust dr.2
        rcases hset : set dr.2 with ⟨r1, e⟩
        rw [hset] at hs
        cases e with
        | some e => rfl
        | none =>
          simp only
          rw [update_same h k (dr.1, r1) f ⟨hu.1, by rw [show begun (dr.1, r1).2 = begun dr.2 from hs]; exact hu.2⟩]

/-- The trackers after a visit: those of other keyframes are as before, those of this one still began
when they did. -/
theorem visit_begun (h : Refuses E E' stamp start begun) (kf : Dict ι (D × R)) (k : ι) (f : Φ) :
    (∀ k', k' ≠ k → Dict.get? (visit E kf k f).1 k' = Dict.get? kf k') ∧
    ∀ dr', Dict.get? (visit E kf k f).1 k = some dr' →
      (∃ dr, Dict.get? kf k = some dr ∧ start dr'.1 = start dr.1 ∧ begun dr'.2 = begun dr.2) ∨
      (Dict.get? kf k = none ∧ start dr'.1 = stamp f ∧ begun dr'.2 = stamp f) := by
  unfold visit
  cases hd : E.newDyn f with
  | error e => exact ⟨fun _ _ => rfl, fun dr' hd' => Or.inl ⟨dr', hd', rfl, rfl⟩⟩
  | ok d0 =>
    cases hr : E.newRelax f with
    | error e => exact ⟨fun _ _ => rfl, fun dr' hd' => Or.inl ⟨dr', hd', rfl, rfl⟩⟩
    | ok r0 =>
      have hg : (Dict.get? (Dict.setdefault kf k (d0, r0)) k).getD (d0, r0) =
          (Dict.get? kf k).getD (d0, r0) := by
        rw [Dict.get?_setdefault]
        simp
      simp only [hg]
      have hother (x : D × R) (k' : ι) (hk : k' ≠ k) :
          Dict.get? (Dict.set (Dict.setdefault kf k (d0, r0)) k x) k' = Dict.get? kf k' := by
        rw [Dict.get?_set, if_neg (fun e => hk e.symm), Dict.get?_setdefault,
          if_neg (fun e => hk e.symm)]
      have hthis (x dr' : D × R) (hx : Dict.get? (Dict.set (Dict.setdefault kf k (d0, r0)) k x) k = some dr') :
          dr' = x := by
        rw [Dict.get?_set, if_pos rfl] at hx
        exact (Option.some.inj hx).symm
      have key (dr : D × R) (hdr : dr = (Dict.get? kf k).getD (d0, r0)) (x : D × R)
          (h1 : start x.1 = start dr.1) (h2 : begun x.2 = begun dr.2) :
          (∃ dr, Dict.get? kf k = some dr ∧ start x.1 = start dr.1 ∧ begun x.2 = begun dr.2) ∨
          (Dict.get? kf k = none ∧ start x.1 = stamp f ∧ begun x.2 = stamp f) := by
        cases hk : Dict.get? kf k with
        | some dr0 =>
          rw [hk, Option.getD_some] at hdr
          subst hdr
          exact Or.inl ⟨dr, rfl, h1, h2⟩
        | none =>
          rw [hk, Option.getD_none] at hdr
          subst hdr
          exact Or.inr ⟨rfl, h1.trans (h.start_new f d0 hd), h2.trans (h.begun_new f r0 hr)⟩
      generalize hdr : (Dict.get? kf k).getD (d0, r0) = dr
      cases hcust : E.custom with
      | none =>
        simp only
        refine ⟨hother _, fun dr' hx => ?_⟩
        rw [hthis _ _ hx]
        exact key dr hdr.symm _ (update_begun h k (dr.1, dr.2) f).1 (update_begun h k (dr.1, dr.2) f).2
      | some set =>
        have hs := h.begun_custom set hcust dr.2
        simp only
        rcases hset : set dr.2 with ⟨r1, e⟩
        rw [hset] at hs
        cases e with
        | some e =>
          refine ⟨hother _, fun dr' hx => ?_⟩
          rw [hthis _ _ hx]
          exact key dr hdr.symm _ rfl hs
        | none =>
          refine ⟨hother _, fun dr' hx => ?_⟩
          rw [hthis _ _ hx]
          exact key dr hdr.symm _ (update_begun h k (dr.1, r1) f).1
            ((update_begun h k (dr.1, r1) f).2.trans hs)

/-- The trackers at hand and the visits to come fit together. -/
def Ready (stamp : Φ → Int) (start : D → Int) (begun : R → Int) (kf : Dict ι (D × R))
    (vs : List (ι × Φ)) : Prop :=
  ∀ k, (∀ dr, Dict.get? kf k = some dr → ∀ f ∈ framesOf k vs, Begun start begun (stamp f) dr) ∧
    (Dict.get? kf k = none → ∀ g, (framesOf k vs).head? = some g → ∀ f ∈ framesOf k vs, stamp g ≤ stamp f)

theorem framesOf_cons (k k' : ι) (f : Φ) (vs : List (ι × Φ)) :
    framesOf k' ((k, f) :: vs) = (if k = k' then [f] else []) ++ framesOf k' vs := by
  unfold framesOf
  by_cases h : k = k' <;> simp [h]

theorem Ready.step (h : Refuses E E' stamp start begun) {kf : Dict ι (D × R)} {k : ι} {f : Φ}
    {vs : List (ι × Φ)} (hr : Ready stamp start begun kf ((k, f) :: vs)) :
    visit E' kf k f = visit E kf k f ∧
      ((∀ e, (visit E kf k f).2 ≠ .error e) → Ready stamp start begun (visit E kf k f).1 vs) := by
  constructor
  · apply visit_same h
    intro dr hdr
    exact (hr k).1 dr hdr f (by rw [framesOf_cons]; simp)
  · intro hok k'
    obtain ⟨h1, h2⟩ := visit_begun h kf k f
    by_cases hk : k' = k
    · subst hk
      constructor
      · intro dr' hdr' g hg
        rcases h2 dr' hdr' with ⟨dr, e1, e2, e3⟩ | ⟨e1, e2, e3⟩
        · have := (hr k').1 dr e1 g (by rw [framesOf_cons]; simp [hg])
          exact ⟨e2 ▸ this.1, e3 ▸ this.2⟩
        · have := (hr k').2 e1 f (by rw [framesOf_cons]; simp) g (by rw [framesOf_cons]; simp [hg])
          exact ⟨e2 ▸ this, e3 ▸ this⟩
      · intro hnone
        exfalso
        rcases hv : visit E kf k' f with ⟨kf', e | o⟩
        · exact hok e (by rw [hv])
        · obtain ⟨d0, r0, -, -, e, -⟩ := visit_ok E kf kf' k' f o hv
          rw [hv, e, Dict.get?_set, if_pos rfl] at hnone
          cases hnone
    · rw [h1 k' hk]
      have := hr k'
      rw [framesOf_cons, if_neg (fun e => hk e.symm), List.nil_append] at this
      exact this

theorem coreRun_same (h : Refuses E E' stamp start begun) : ∀ (vs : List (ι × Φ)) (kf : Dict ι (D × R)),
    Ready stamp start begun kf vs → coreRun E' vs kf = coreRun E vs kf := by
  intro vs
  induction vs with
  | nil => intro kf _; rfl
  | cons v vs ih =>
    intro kf hr
    obtain ⟨k, f⟩ := v
    obtain ⟨h1, h2⟩ := hr.step h
    simp only [coreRun]
    rw [h1]
    rcases hv : visit E kf k f with ⟨kf', e | o⟩
    · rfl
    · rw [hv] at h2
      have := ih kf' (h2 (by simp))
      cases o with
      | none => exact this
      | some row => simp only [this]

theorem ready_nil {vs : List (ι × Φ)} (hf : Forward stamp vs) : Ready stamp start begun [] vs :=
  fun k => ⟨by simp [Dict.get?], fun _ g hg f hf' => hf k g hg f hf'⟩

theorem visitLoop_same (h : Refuses E E' stamp start begun) : ∀ (vs : List (ι × Φ)) (s : St ι D R ρ σ ν),
    Ready stamp start begun s.kf vs → visitLoop E' vs s = visitLoop E vs s := by
  intro vs
  induction vs with
  | nil => intro s _; rfl
  | cons v vs ih =>
    intro s hr
    obtain ⟨k, f⟩ := v
    obtain ⟨h1, h2⟩ := hr.step h
    simp only [visitLoop]
    rw [h1]
    rcases hv : visit E s.kf k f with ⟨kf', e | o⟩
    · rfl
    · rw [hv] at h2
      have hr' := h2 (by simp)
      cases o with
      | none => exact ih _ hr'
      | some row =>
        simp only
        rcases s.cache.append s.file row with ⟨⟨c, file⟩, e⟩
        cases e with
        | some e => rfl
        | none => exact ih ⟨kf', c, file⟩ hr'

theorem processFile_same (h : Refuses E E' stamp start begun)
    (iter : Option (List (List ι × Φ) × Option PyErr)) (outfile : Bool) (file : File (Rec ι ρ σ ν))
    (hf : ∀ pairs e, iter = some (pairs, e) → Forward stamp (visitsOf E pairs)) :
    processFile E' iter outfile file = processFile E iter outfile file := by
  unfold processFile
  cases iter with
  | none => rfl
  | some it =>
    obtain ⟨pairs, e⟩ := it
    have hvis : visitsOf E' pairs = visitsOf E pairs := by unfold visitsOf; rw [h.numPos]
    have hloop : ∀ s : St ι D R ρ σ ν, s.kf = [] → frameLoop E' pairs s = frameLoop E pairs s := by
      intro s hs
      rw [frameLoop_eq, frameLoop_eq, hvis, visitLoop_same h]
      rw [hs]; exact ready_nil (hf pairs e rfl)
    have hmol : ∀ (kf : Dict ι (D × R)) v, molRows E' kf v = molRows E kf v := by
      intro kf v; unfold molRows; rw [h.summary]
    have hfin : ∀ s : St ι D R ρ σ ν, finishFile E' s = finishFile E s := by
      intro s; unfold finishFile; rw [h.simVars]; simp only [hmol]
    have hl := hloop ⟨[], ⟨outfile, some "dynamics", 1, false, [], 8192, 0⟩, file⟩ rfl
    simp only [hl, hfin]

theorem coreRun_append (E : Env Φ D R ρ σ ν) : ∀ (a b : List (ι × Φ)) (kf : Dict ι (D × R)),
    (coreRun E a kf).2 = none → coreRun E (a ++ b) kf =
      (((coreRun E b (coreRun E a kf).1.1).1.1, (coreRun E a kf).1.2 ++ (coreRun E b (coreRun E a kf).1.1).1.2),
        (coreRun E b (coreRun E a kf).1.1).2) := by
  intro a
  induction a with
  | nil => intro b kf _; rfl
  | cons v a ih =>
    intro b kf h
    simp only [List.cons_append, coreRun] at h ⊢
    rcases hv : visit E kf v.1 v.2 with ⟨kf', e | o⟩
    · simp [hv] at h
    · cases o with
      | none => simp only [hv] at h ⊢; exact ih b kf' h
      | some row => simp only [hv] at h ⊢; rw [ih b kf' h]; simp

/-! ## a frame before the first -/

/-- What is known of the trackers after the visits `past`: they exist for the keyframes seen and began
with the first frame. -/
def Started (stamp : Φ → Int) (start : D → Int) (past : List (ι × Φ)) (kf : Dict ι (D × R)) : Prop :=
  ∀ k, (framesOf k past = [] → Dict.get? kf k = none) ∧
    ∀ g, (framesOf k past).head? = some g → ∃ dr, Dict.get? kf k = some dr ∧ start dr.1 = stamp g

theorem Started.step (h : Refuses E E' stamp start begun) {kf : Dict ι (D × R)} {k : ι} {f : Φ}
    {past : List (ι × Φ)} (hs : Started stamp start past kf) {kf' : Dict ι (D × R)}
    {o : Option (Rec ι ρ σ ν)} (hv : visit E kf k f = (kf', .ok o)) :
    Started stamp start (past ++ [(k, f)]) kf' := by
  intro k'
  obtain ⟨h1, h2⟩ := visit_begun h kf k f
  rw [hv] at h1 h2
  rw [framesOf_snoc]
  by_cases hk : k' = k
  · subst hk
    simp only [if_true]
    refine ⟨by simp, fun g hg => ?_⟩
    obtain ⟨d0, r0, -, -, e, -⟩ := visit_ok E kf kf' k' f o hv
    have hget : ∃ dr', Dict.get? kf' k' = some dr' := by
      rw [e, Dict.get?_set, if_pos rfl]; exact ⟨_, rfl⟩
    obtain ⟨dr', hdr'⟩ := hget
    refine ⟨dr', hdr', ?_⟩
    rcases h2 dr' hdr' with ⟨dr, e1, e2, -⟩ | ⟨e1, e2, -⟩
    · cases hfr : framesOf k' past with
      | nil => rw [(hs k').1 hfr] at e1; cases e1
      | cons g' l =>
        rw [hfr] at hg
        simp only [List.cons_append, List.head?_cons, Option.some.injEq] at hg
        subst hg
        obtain ⟨dr2, e3, e4⟩ := (hs k').2 g' (by rw [hfr]; rfl)
        rw [e1] at e3
        cases e3
        rw [e2, e4]
    · cases hfr : framesOf k' past with
      | nil =>
        rw [hfr] at hg
        simp only [List.nil_append, List.head?_cons, Option.some.injEq] at hg
        rw [e2, hg]
      | cons g' l =>
        obtain ⟨dr2, e3, -⟩ := (hs k').2 g' (by rw [hfr]; rfl)
        rw [e1] at e3
        cases e3
  · rw [if_neg (fun e => hk e.symm), List.append_nil]
    have := hs k'
    rw [h1 k' hk]
    exact this

theorem Started.run (h : Refuses E E' stamp start begun) : ∀ (vs past : List (ι × Φ))
    (kf : Dict ι (D × R)), Started stamp start past kf → (coreRun E vs kf).2 = none →
    Started stamp start (past ++ vs) (coreRun E vs kf).1.1 := by
  intro vs
  induction vs with
  | nil => intro past kf hs _; simpa [coreRun] using hs
  | cons v vs ih =>
    intro past kf hs herr
    obtain ⟨k, f⟩ := v
    have hcons : past ++ (k, f) :: vs = past ++ [(k, f)] ++ vs := by simp
    rw [hcons]
    simp only [coreRun] at herr ⊢
    rcases hv : visit E kf k f with ⟨kf', e | o⟩
    · simp [hv] at herr
    · have hst := hs.step h hv
      cases o with
      | none => simp only [hv] at herr ⊢; exact ih _ kf' hst herr
      | some row => simp only [hv] at herr ⊢; exact ih _ kf' hst herr

theorem coreRun_length (E : Env Φ D R ρ σ ν) : ∀ (vs : List (ι × Φ)) (kf : Dict ι (D × R)),
    (coreRun E vs kf).1.2.length ≤ vs.length := by
  intro vs
  induction vs with
  | nil => intro kf; simp [coreRun]
  | cons v vs ih =>
    intro kf
    simp only [coreRun]
    rcases hv : visit E kf v.1 v.2 with ⟨kf', e | o⟩
    · simp
    · cases o with
      | none => exact (ih kf').trans (by simp)
      | some row => simpa using ih kf'

theorem visit_refused (h : Refuses E E' stamp start begun) {kf kf' : Dict ι (D × R)} {k : ι} {f : Φ}
    {dr : D × R} (hk : Dict.get? kf k = some dr) (hlt : stamp f < start dr.1) {row : Rec ι ρ σ ν}
    (hv : visit E kf k f = (kf', .ok (some row))) :
    ∃ kf'', visit E' kf k f = (kf'', .error .floatingPointError) := by
  unfold visit at hv ⊢
  rw [h.newDyn, h.newRelax, h.custom]
  cases hd : E.newDyn f with
  | error e => simp [hd] at hv
  | ok d0 =>
    cases hr : E.newRelax f with
    | error e => simp [hd, hr] at hv
    | ok r0 =>
      have hg : (Dict.get? (Dict.setdefault kf k (d0, r0)) k).getD (d0, r0) = dr := by
        rw [Dict.get?_setdefault]
        simp [hk]
      rw [hd, hr] at hv
      simp only [hg] at hv ⊢
      have key (r1 : R) (hu : (update E k (dr.1, r1) f).2 = .ok (some row)) :
          (update E' k (dr.1, r1) f).2 = .error .floatingPointError := by
        unfold update at hu ⊢
        simp only at hu ⊢
        rcases hc : E.computeAll dr.1 f with ⟨d, e | row'⟩
        · rw [hc] at hu
          simp only [afterRaise] at hu
          split at hu <;> cases hu
        · have hb := h.before dr.1 f row' hlt (by rw [hc])
          rcases hc' : E'.computeAll dr.1 f with ⟨d', x⟩
          rw [hc'] at hb
          simp only at hb
          subst hb
          rfl
      cases hcust : E.custom with
      | none =>
        rw [hcust] at hv
        simp only [Prod.mk.injEq] at hv
        exact ⟨_, Prod.ext rfl (key _ hv.2)⟩
      | some set =>
        rw [hcust] at hv
        simp only at hv ⊢
        rcases hset : set dr.2 with ⟨r1, e⟩
        rw [hset] at hv
        cases e with
        | some e => simp at hv
        | none =>
          simp only [Prod.mk.injEq] at hv ⊢
          exact ⟨_, rfl, key _ hv.2⟩

theorem not_forward {vs : List (ι × Φ)} (hn : ¬ Forward stamp vs) :
    ∃ past k f rest g, vs = past ++ (k, f) :: rest ∧ Forward stamp past ∧
      (framesOf k past).head? = some g ∧ stamp f < stamp g := by
  induction vs using List.reverseRecOn with
  | nil => exact absurd (fun k g hg => by simp [framesOf] at hg) hn
  | append_singleton l x ih =>
    by_cases hl : Forward stamp l
    · obtain ⟨k, f⟩ := x
      unfold Forward at hn
      push Not at hn
      obtain ⟨k', g, h1, f', h2, h3⟩ := hn
      rw [framesOf_snoc] at h1 h2
      by_cases hk : k = k'
      · subst hk
        simp only [if_true] at h1 h2
        cases hfr : framesOf k l with
        | nil =>
          rw [hfr] at h1 h2
          simp only [List.nil_append, List.head?_cons, Option.some.injEq, List.mem_singleton] at h1 h2
          subst h1 h2
          exact absurd h3 (lt_irrefl _)
        | cons g' m =>
          rw [hfr] at h1 h2
          simp only [List.cons_append, List.head?_cons, Option.some.injEq] at h1
          subst h1
          have hh : (framesOf k l).head? = some g' := by rw [hfr]; rfl
          refine ⟨l, k, f, [], g', rfl, hl, hh, ?_⟩
          rw [← hfr] at h2
          rcases List.mem_append.1 h2 with h2 | h2
          · exact absurd (hl k g' hh f' h2) (not_le.2 h3)
          · rw [List.mem_singleton] at h2; rw [← h2]; exact h3
      · rw [if_neg hk, List.append_nil] at h1 h2
        exact absurd (hl k' g h1 f' h2) (not_le.2 h3)
    · obtain ⟨past, k, f, rest, g, e, h1, h2, h3⟩ := ih hl
      exact ⟨past, k, f, rest ++ [x], g, by rw [e]; simp, h1, h2, h3⟩

theorem coreRun_refused (h : Refuses E E' stamp start begun) {vs : List (ι × Φ)}
    (hok : (coreRun E vs []).2 = none) (hall : (coreRun E vs []).1.2.length = vs.length)
    (hn : ¬ Forward stamp vs) :
    (coreRun E' vs []).2 = some .floatingPointError ∧
      ∃ n < vs.length, (coreRun E' vs []).1.2 = (coreRun E vs []).1.2.take n := by
  obtain ⟨past, k, f, rest, g, rfl, h1, h2, h3⟩ := not_forward hn
  have hp := coreRun_prefix E past _ [] hok
  have hsame := coreRun_same h past [] (ready_nil h1)
  have hst := Started.run h past [] [] (fun k => ⟨fun _ => rfl, fun g hg => by simp [framesOf] at hg⟩) hp
  rw [List.nil_append] at hst
  obtain ⟨dr, hdr, hstart⟩ := (hst k).2 g h2
  have eE := coreRun_append E past ((k, f) :: rest) [] hp
  have eE' := coreRun_append E' past ((k, f) :: rest) [] (by rw [hsame]; exact hp)
  rw [hsame] at eE'
  rw [eE] at hok hall ⊢
  rw [eE']
  simp only at hok hall ⊢
  generalize (coreRun E past []).1.1 = kf at hok hall hdr ⊢
  have hlp := coreRun_length E past []
  have hlen : (coreRun E ((k, f) :: rest) kf).1.2.length = rest.length + 1 := by
    have := coreRun_length E ((k, f) :: rest) kf
    simp only [List.length_append, List.length_cons] at this hall
    omega
  have hlp' : (coreRun E past []).1.2.length = past.length := by
    simp only [List.length_append, List.length_cons, hlen] at hall
    omega
  have hrow : ∃ kf' row, visit E kf k f = (kf', .ok (some row)) := by
    simp only [coreRun] at hok hlen
    rcases hv : visit E kf k f with ⟨kf', e | o⟩
    · rw [hv] at hok; cases hok
    · cases o with
      | some row => exact ⟨kf', row, rfl⟩
      | none =>
        rw [hv] at hlen
        simp only at hlen
        have := coreRun_length E rest kf'
        omega
  obtain ⟨kf', row, hv⟩ := hrow
  obtain ⟨kf'', hv'⟩ := visit_refused h hdr (by rw [hstart]; exact h3) hv
  have e2 : coreRun E' ((k, f) :: rest) kf = ((kf'', []), some .floatingPointError) := by
    simp only [coreRun, hv']
  rw [e2]
  refine ⟨rfl, past.length, by simp, ?_⟩
  rw [← hlp', List.take_left']
  · simp
  · rfl

end Verif.Process
