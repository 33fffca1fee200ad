import Verif.Process.Spec
/-!
# Frames put in another form, and trackers that do not see the difference
-/

namespace Verif.Process

open Verif.Cache

variable {ι Φ D R ρ σ ν : Type} [DecidableEq ι]

/-- The trackers made of the frames `φ f` are the ones of the frames `f` put in another form, and give the same. -/
structure Alike (E : Env Φ D R ρ σ ν) (φ : Φ → Φ) (dm : D → D) (rm : R → R) : Prop where
  numPos : ∀ f, E.numPos (φ f) = E.numPos f
  newDyn : ∀ f, E.newDyn (φ f) = (E.newDyn f).map dm
  newRelax : ∀ f, E.newRelax (φ f) = (E.newRelax f).map rm
  custom : ∀ set, E.custom = some set → ∀ r, set (rm r) = (rm (set r).1, (set r).2)
  computeAll : ∀ d f, E.computeAll (dm d) (φ f) = (dm (E.computeAll d f).1, (E.computeAll d f).2)
  relaxAdd : ∀ r f, E.relaxAdd (rm r) (φ f) = (rm (E.relaxAdd r f).1, (E.relaxAdd r f).2)
  summary : ∀ r, E.summary (rm r) = E.summary r

variable {E : Env Φ D R ρ σ ν} {φ : Φ → Φ} {dm : D → D} {rm : R → R}

/-- All trackers put in the other form. -/
def mapKf (dm : D → D) (rm : R → R) (kf : Dict ι (D × R)) : Dict ι (D × R) :=
  kf.map (fun p => (p.1, (dm p.2.1, rm p.2.2)))

theorem mapKf_get (k : ι) : ∀ kf : Dict ι (D × R),
    Dict.get? (mapKf dm rm kf) k = (Dict.get? kf k).map (fun dr => (dm dr.1, rm dr.2))
  | [] => rfl
  | p :: kf => by
    have ih := mapKf_get k kf
    unfold mapKf at ih
    by_cases h : p.1 = k
    · simp [mapKf, Dict.get?, h]
    · simpa [mapKf, Dict.get?, h] using ih

theorem mapKf_set (k : ι) (v : D × R) : ∀ kf : Dict ι (D × R),
    Dict.set (mapKf dm rm kf) k (dm v.1, rm v.2) = mapKf dm rm (Dict.set kf k v)
  | [] => rfl
  | p :: kf => by
    have ih := mapKf_set k v kf
    by_cases h : p.1 = k
    · simp [mapKf, Dict.set, h]
    · unfold mapKf at ih ⊢
      simp [Dict.set, h, ih]

theorem mapKf_setdefault (kf : Dict ι (D × R)) (k : ι) (v : D × R) :
    Dict.setdefault (mapKf dm rm kf) k (dm v.1, rm v.2) = mapKf dm rm (Dict.setdefault kf k v) := by
  have e : Dict.mem (mapKf dm rm kf) k = Dict.mem kf k := by
    unfold Dict.mem
    rw [mapKf_get]
    cases Dict.get? kf k <;> rfl
  unfold Dict.setdefault
  rw [e]
  by_cases h : Dict.mem kf k = true
  · simp [h]
  · simp [h, mapKf_set]

omit [DecidableEq ι] in
theorem update_map (H : Alike E φ dm rm) (k : ι) (dr : D × R) (f : Φ) :
    update E k (dm dr.1, rm dr.2) (φ f) =
      ((dm (update E k dr f).1.1, rm (update E k dr f).1.2), (update E k dr f).2) := by
  unfold update
  simp only [H.computeAll, H.relaxAdd]
  rcases h1 : E.computeAll dr.1 f with ⟨d, e | row⟩
  · rfl
  · rcases h2 : E.relaxAdd dr.2 f with ⟨r, _ | e⟩
    · cases E.simVars <;> rfl
    · rfl

theorem visit_map (H : Alike E φ dm rm) (kf : Dict ι (D × R)) (k : ι) (f : Φ) :
    visit E (mapKf dm rm kf) k (φ f) = (mapKf dm rm (visit E kf k f).1, (visit E kf k f).2) := by
  unfold visit
  rw [H.newDyn, H.newRelax]
  cases h1 : E.newDyn f with
  | error e => rfl
  | ok d0 =>
    cases h2 : E.newRelax f with
    | error e => rfl
    | ok r0 =>
      simp only [Except.map]
      rw [mapKf_setdefault kf k (d0, r0), mapKf_get]
      generalize Dict.setdefault kf k (d0, r0) = kf1
      have hdr : ((Dict.get? kf1 k).map (fun dr => (dm dr.1, rm dr.2))).getD (dm d0, rm r0) =
          (dm ((Dict.get? kf1 k).getD (d0, r0)).1, rm ((Dict.get? kf1 k).getD (d0, r0)).2) := by
        cases Dict.get? kf1 k <;> rfl
      rw [hdr]
      generalize (Dict.get? kf1 k).getD (d0, r0) = dr
      cases hc : E.custom with
      | none =>
        simp only
        rw [update_map H k (dr.1, dr.2) f, mapKf_set]
      | some set =>
        simp only [H.custom set hc]
        rcases hs : set dr.2 with ⟨r1, _ | e⟩
        · simp only
          rw [update_map H k (dr.1, r1) f, mapKf_set]
        · simp only
          rw [mapKf_set k (dr.1, r1)]

/-- The state with the trackers in the other form. -/
def mapSt (dm : D → D) (rm : R → R) (s : St ι D R ρ σ ν) : St ι D R ρ σ ν := { s with kf := mapKf dm rm s.kf }

theorem indexLoop_map (H : Alike E φ dm rm) (f : Φ) : ∀ (ks : List ι) (s : St ι D R ρ σ ν),
    indexLoop E (φ f) ks (mapSt dm rm s) = (mapSt dm rm (indexLoop E f ks s).1, (indexLoop E f ks s).2)
  | [], _ => rfl
  | k :: ks, s => by
    unfold indexLoop
    have e : visit E (mapSt dm rm s).kf k (φ f) = _ := visit_map H s.kf k f
    rw [e]
    rcases hv : visit E s.kf k f with ⟨kf, e | _ | row⟩
    · rfl
    · exact indexLoop_map H f ks { s with kf := kf }
    · simp only
      rcases ha : s.cache.append s.file row with ⟨⟨c, file⟩, _ | e⟩
      · have ha' : (mapSt dm rm s).cache.append (mapSt dm rm s).file row = ((c, file), none) := ha
        rw [ha']
        exact indexLoop_map H f ks ⟨kf, c, file⟩
      · have ha' : (mapSt dm rm s).cache.append (mapSt dm rm s).file row = ((c, file), some e) := ha
        rw [ha']
        rfl

theorem frameLoop_map (H : Alike E φ dm rm) : ∀ (ps : List (List ι × Φ)) (s : St ι D R ρ σ ν),
    frameLoop E (ps.map (fun p => (p.1, φ p.2))) (mapSt dm rm s) =
      (mapSt dm rm (frameLoop E ps s).1, (frameLoop E ps s).2)
  | [], _ => rfl
  | p :: ps, s => by
    simp only [List.map_cons]
    unfold frameLoop
    simp only [H.numPos]
    by_cases h : E.numPos p.2 = 0
    · simp only [h, if_true]
      exact frameLoop_map H ps s
    · simp only [h, if_false]
      rw [indexLoop_map H]
      rcases hi : indexLoop E p.2 p.1 s with ⟨s', _ | e⟩
      · exact frameLoop_map H ps s'
      · rfl

omit [DecidableEq ι] in
theorem molRows_map (H : Alike E φ dm rm) (kf : Dict ι (D × R)) (v : ν) :
    molRows E (mapKf dm rm kf) v = molRows E kf v := by
  unfold molRows mapKf
  rw [List.flatMap_map]
  simp only [H.summary]

/-- `process_file` does the same with the frames in the other form. -/
theorem processFile_map (H : Alike E φ dm rm) (pairs : List (List ι × Φ)) (ending : Option PyErr) (outfile : Bool)
    (file : File (Rec ι ρ σ ν)) :
    processFile E (some (pairs.map (fun p => (p.1, φ p.2)), ending)) outfile file =
      processFile E (some (pairs, ending)) outfile file := by
  unfold processFile
  have e := frameLoop_map H pairs
    (⟨[], ⟨outfile, some "dynamics", 1, false, [], 8192, 0⟩, file⟩ : St ι D R ρ σ ν)
  have e0 : mapSt dm rm (⟨[], ⟨outfile, some "dynamics", 1, false, [], 8192, 0⟩, file⟩ : St ι D R ρ σ ν) =
      ⟨[], ⟨outfile, some "dynamics", 1, false, [], 8192, 0⟩, file⟩ := rfl
  rw [e0] at e
  simp only
  rw [e]
  rcases frameLoop E pairs
    (⟨[], ⟨outfile, some "dynamics", 1, false, [], 8192, 0⟩, file⟩ : St ι D R ρ σ ν) with ⟨s, _ | e⟩
  · cases ending with
    | some e => rfl
    | none =>
      simp only
      cases outfile
      · rfl
      · simp only [if_true]
        unfold finishFile
        have h1 : (mapSt dm rm s).cache.flush (mapSt dm rm s).file = s.cache.flush s.file := rfl
        have h2 : (mapSt dm rm s).kf.isEmpty = s.kf.isEmpty := by
          unfold mapSt mapKf
          simp
        have h3 : ∀ v, molRows E (mapSt dm rm s).kf v = molRows E s.kf v := fun v => molRows_map H s.kf v
        rw [h1, h2]
        simp only [h3]
  · rfl

theorem soloStep_map (H : Alike E φ dm rm) (dr : D × R) (f : Φ) :
    soloStep E (dm dr.1, rm dr.2) (φ f) =
      ((dm (soloStep E dr f).1.1, rm (soloStep E dr f).1.2), (soloStep E dr f).2) := by
  unfold soloStep
  cases hc : E.custom with
  | none =>
    simp only [H.computeAll, H.relaxAdd]
    rcases h1 : E.computeAll dr.1 f with ⟨d, e | row⟩
    · rfl
    · rcases h2 : E.relaxAdd dr.2 f with ⟨r, _ | e⟩ <;> rfl
  | some set =>
    simp only [H.computeAll, H.custom set hc, H.relaxAdd]
    rcases h1 : E.computeAll dr.1 f with ⟨d, e | row⟩
    · rfl
    · rcases h2 : E.relaxAdd (set dr.2).1 f with ⟨r, _ | e⟩ <;> rfl

/-- Trackers on their own give the same for the frames in the other form. -/
theorem solo_map (H : Alike E φ dm rm) (fs : List Φ) :
    solo E (fs.map φ) = (solo E fs).map (fun s => ((dm s.1.1, rm s.1.2), s.2)) := by
  have key : ∀ (l : List Φ) (s : (D × R) × List ρ),
      (l.map φ).foldl (fun s f => ((soloStep E s.1 f).1, s.2 ++ (soloStep E s.1 f).2.toList))
        ((dm s.1.1, rm s.1.2), s.2) =
      ((dm (l.foldl (fun s f => ((soloStep E s.1 f).1, s.2 ++ (soloStep E s.1 f).2.toList)) s).1.1,
        rm (l.foldl (fun s f => ((soloStep E s.1 f).1, s.2 ++ (soloStep E s.1 f).2.toList)) s).1.2),
        (l.foldl (fun s f => ((soloStep E s.1 f).1, s.2 ++ (soloStep E s.1 f).2.toList)) s).2) := by
    intro l
    induction l with
    | nil => intro s; rfl
    | cons f l ih =>
      intro s
      simp only [List.map_cons, List.foldl_cons]
      rw [soloStep_map H]
      exact ih ((soloStep E s.1 f).1, s.2 ++ (soloStep E s.1 f).2.toList)
  cases fs with
  | nil => rfl
  | cons f fs =>
    simp only [List.map_cons, solo, H.newDyn, H.newRelax]
    cases h1 : E.newDyn f with
    | error e => rfl
    | ok d =>
      cases h2 : E.newRelax f with
      | error e => rfl
      | ok r =>
        simp only [Except.map, Option.map_some]
        refine congrArg some ?_
        exact key (f :: fs) ((d, r), [])

theorem soloRows_map (H : Alike E φ dm rm) (fs : List Φ) : soloRows E (fs.map φ) = soloRows E fs := by
  unfold soloRows
  rw [solo_map H]
  cases solo E fs <;> rfl

theorem soloSummary_map (H : Alike E φ dm rm) (fs : List Φ) : soloSummary E (fs.map φ) = soloSummary E fs := by
  unfold soloSummary
  rw [solo_map H]
  cases solo E fs with
  | none => rfl
  | some s => exact H.summary s.1.2

end Verif.Process
