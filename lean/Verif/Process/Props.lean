import Mathlib.Data.Rat.Defs
import Mathlib.Algebra.Order.Ring.Rat
import Mathlib.Algebra.Order.Field.Rat
import Verif.Relax.Lemmas
import Verif.Process.Lemmas
import Verif.Process.RelaxEnv
/-!
# Properties of `process_file`, C24-C28
-/

namespace Verif.Process

open Verif.Cache

variable {ι Φ D R ρ σ ν : Type} [DecidableEq ι]

/-! ## C24 -/

/-- The property as stated, for the simplest trackers: whenever a run with an output file succeeds,
the run without returns the same rows. -/
def SameRows : Prop :=
  ∀ (E : Env Unit Unit Unit Unit Unit Unit) (pairs : List (List Nat × Unit)),
    (processFile E (some (pairs, none)) true []).2 = .ok none →
    (processFile E (some (pairs, none)) false []).2 =
      .ok (some (rows (processFile E (some (pairs, none)) true []).1 "dynamics"))

/-- More than 8192 rows without an output file always raise AssertionError, from the flush that the
cache attempts. -/
theorem C24_memory_overflow (E : Env Φ D R ρ σ ν) (pairs : List (List ι × Φ))
    (ending : Option PyErr) (file file' : File (Rec ι ρ σ ν)) (o : Option (List (Rec ι ρ σ ν)))
    (h : processFile E (some (pairs, ending)) true file = (file', .ok o))
    (hbig : 8192 < (expected E [] (visitsOf E pairs)).length) :
    processFile E (some (pairs, ending)) false file = (file, .error .assertionError) := by
  obtain ⟨_, _, h1, _⟩ := processFile_ok E pairs ending file file' o h
  rw [expected_length E _ h1] at hbig
  obtain ⟨kf, c, hl⟩ := (loop_memory E pairs file).2 hbig
  simp only [processFile]
  rw [hl]

/-- Trackers that do nothing, and never fail. -/
def idle : Env Unit Unit Unit Unit Unit Unit where
  numPos _ := 1
  newDyn _ := .ok ()
  newRelax _ := .ok ()
  custom := none
  computeAll _ _ := ((), .ok ())
  relaxAdd _ _ := ((), none)
  summary _ := [()]
  simVars := .ok ()

theorem idle_core (n : Nat) : ∀ kf : Dict Nat (Unit × Unit),
    (coreRun idle (List.replicate n (0, ())) kf).2 = none ∧
    (coreRun idle (List.replicate n (0, ())) kf).1.2.length = n := by
  induction n with
  | zero => intro kf; exact ⟨rfl, rfl⟩
  | succ n ih =>
    intro kf
    simp only [List.replicate_succ, coreRun, visit, idle, update]
    exact ⟨(ih _).1, by simp only [List.length_cons]; exact congrArg (· + 1) (ih _).2⟩

theorem idle_visits (n : Nat) :
    visitsOf idle (List.replicate n ([0], ())) = List.replicate n ((0 : Nat), ()) := by
  induction n with
  | zero => rfl
  | succ n ih =>
    rw [List.replicate_succ, List.replicate_succ, ← ih]
    rfl

/-- **C24 is false**: with 8193 frames the run without output file raises AssertionError. -/
theorem C24_memory_equals_file_refuted : ¬ SameRows := by
  intro h
  obtain ⟨n, hn⟩ : ∃ n, 8192 < n := ⟨8193, by decide⟩
  have hc := idle_core n []
  have hv := idle_visits n
  have h0 : (coreRun idle (visitsOf idle (List.replicate n ([0], ()))) []).2 = none := by
    rw [hv]; exact hc.1
  have hr : (coreRun idle (visitsOf idle (List.replicate n ([0], ()))) []).1.2 ≠ [] := by
    rw [hv]
    intro h1
    have h2 := hc.2
    rw [h1, List.length_nil] at h2
    omega
  obtain ⟨file', hp⟩ := processFile_returns idle (List.replicate n ([0], ())) [] () h0 rfl
    (coreRun_rows_kf idle _ h0 hr).1
  have h1 := h idle (List.replicate n ([0], ())) (by rw [hp])
  have h2 := C24_memory_overflow idle (List.replicate n ([0], ())) none [] file' none hp (by
    rw [expected_length idle _ h0, hv, hc.2]; exact hn)
  rw [h2] at h1
  simp at h1

/-- **C24, the part that holds.**  Missing for the full statement: runs with more than 8192 rows, or
with none.  Whenever the run without output file returns rows, the run with output file succeeds and
stores exactly these, whatever the file held before; and it does return them if there are between 1
and 8192 and the other run succeeds. -/
theorem C24_memory_equals_file_partial (E : Env Φ D R ρ σ ν) (pairs : List (List ι × Φ))
    (ending : Option PyErr) (file : File (Rec ι ρ σ ν)) :
    (∀ o, (processFile E (some (pairs, ending)) false file).2 = .ok o →
      ∃ l file', o = some l ∧
        processFile E (some (pairs, ending)) true file = (file', .ok none) ∧
        rows file' "dynamics" = l) ∧
    (∀ file' o, processFile E (some (pairs, ending)) true file = (file', .ok o) →
      expected E [] (visitsOf E pairs) ≠ [] →
      (expected E [] (visitsOf E pairs)).length ≤ 8192 →
      processFile E (some (pairs, ending)) false file =
        (file, .ok (some (rows file' "dynamics")))) := by
  constructor
  · intro o h
    simp only [processFile] at h
    by_cases hlen : (coreRun E (visitsOf E pairs) []).1.2.length ≤ 8192
    · rw [(loop_memory E pairs file).1 hlen] at h
      cases herr : (coreRun E (visitsOf E pairs) []).2 with
      | some e => simp [herr] at h
      | none =>
        cases ending with
        | some e => simp [herr] at h
        | none =>
          simp only [herr, Bool.false_eq_true, if_false, finishMemory] at h
          split at h
          · rename_i hpos
            simp only [Except.ok.injEq] at h
            have hne : (coreRun E (visitsOf E pairs) []).1.2 ≠ [] := by
              intro h0; simp [h0] at hpos
            obtain ⟨hk, v, hv⟩ := coreRun_rows_kf E _ herr hne
            obtain ⟨file', hp⟩ := processFile_returns E pairs file v herr hv hk
            obtain ⟨_, _, _, _, _, _, ht, _⟩ := processFile_ok E pairs none file file' none hp
            exact ⟨_, file', h.symm, hp, by rw [ht, if_neg hne]⟩
          · simp at h
    · obtain ⟨kf, c, hl⟩ := (loop_memory E pairs file).2 (by omega)
      rw [hl] at h
      simp at h
  · intro file' o h hne hlen
    obtain ⟨rfl, rfl, h1, v, hv, hk, ht, _⟩ := processFile_ok E pairs ending file file' o h
    rw [expected_length E _ h1] at hlen
    have hne' := (expected_nil_iff E _ h1).not.1 hne
    simp only [processFile]
    rw [(loop_memory E pairs file).1 hlen, h1]
    have hpos : (coreRun E (visitsOf E pairs) []).1.2.length > 0 := List.length_pos_iff.2 hne'
    simp only [Bool.false_eq_true, if_false, finishMemory, hpos, if_true]
    rw [ht, if_neg hne']

/-- Two frames, three rows. -/
example : (processFile idle (some ([([0], ()), ([0, 1], ())], none)) false []).2 =
    .ok (some [.dyn 0 () (), .dyn 0 () (), .dyn 1 () ()]) := by rfl

/-! ## C25 -/

/-- **C25.** After a successful run the table of dynamics holds for each keyframe exactly the rows
that trackers on their own produce, made at the first frame handed out with that index and shown
only the frames handed out with it; and the molecular relaxations are theirs.  (With no rows at all
the table of dynamics is not written, hence the condition.) -/
theorem C25_keyframes_isolated (E : Env Φ D R ρ σ ν) (pairs : List (List ι × Φ))
    (ending : Option PyErr) (file file' : File (Rec ι ρ σ ν)) (o : Option (List (Rec ι ρ σ ν)))
    (h : processFile E (some (pairs, ending)) true file = (file', .ok o))
    (hne : rows file "dynamics" = [] ∨ expected E [] (visitsOf E pairs) ≠ []) (k : ι) :
    (rows file' "dynamics").filterMap (dynOf k) = soloRows E (framesOf k (visitsOf E pairs)) ∧
    (rows file' "molecular_relaxations").filterMap (molOf k) =
      (soloSummary E (framesOf k (visitsOf E pairs))).mapIdx (fun m r => (m, r)) := by
  obtain ⟨rfl, rfl, h1, v, hv, hk, ht, hm, _⟩ := processFile_ok E pairs ending file file' o h
  obtain ⟨⟨k1, _, k3⟩, _, _, k4⟩ := coreRun_known E (visitsOf E pairs) [] [] (Known.nil E) h1
  constructor
  · have := k4 k
    simp only [List.nil_append] at this
    rw [this, ht]
    by_cases h0 : (coreRun E (visitsOf E pairs) []).1.2 = []
    · rcases hne with hne | hne
      · simp [h0, hne, framesOf, soloRows, solo]
      · exact absurd ((expected_nil_iff E _ h1).2 h0) hne
    · simp [h0, framesOf, soloRows, solo]
  · unfold rows
    rw [hm]
    simp only [Option.getD_some]
    rw [molRows_of E v k _ k3, k1 k]
    simp only [List.nil_append, soloSummary]
    cases solo E (framesOf k (visitsOf E pairs)) <;> simp

/-- Frames with two interleaved keyframes and an empty frame: keyframe 1 sees two frames. -/
example : framesOf 1 (visitsOf (⟨fun n => n, fun _ => .ok (), fun _ => .ok (), none,
    fun _ _ => ((), .ok ()), fun _ _ => ((), none), fun _ => [()], .ok ()⟩ :
    Env Nat Unit Unit Unit Unit Unit) [([0], 5), ([0, 1], 6), ([1], 0), ([0], 7), ([1], 8)]) =
    [6, 8] := by decide

/-! ## C26 -/

/-- **C26.** The table of dynamics holds in reading order one row for each index of each frame with
positions, unless the trackers of that keyframe raise, with that keyframe; and the time of a row is
that of its frame less that of the first frame of its keyframe. -/
theorem C26_rows (E : Env Φ D R ρ σ ν) (pairs : List (List ι × Φ)) (ending : Option PyErr)
    (file file' : File (Rec ι ρ σ ν)) (o : Option (List (Rec ι ρ σ ν)))
    (h : processFile E (some (pairs, ending)) true file = (file', .ok o))
    (hne : rows file "dynamics" = [] ∨ expected E [] (visitsOf E pairs) ≠ []) :
    (rows file' "dynamics").filterMap dynPair = expected E [] (visitsOf E pairs) ∧
    (rows file' "dynamics").length = (expected E [] (visitsOf E pairs)).length ∧
    ∀ (stamp : Φ → Int) (time : ρ → Int) (start : D → Int), Timed E stamp time start →
      ∀ past k f rest row, visitsOf E pairs = past ++ (k, f) :: rest →
        outcome E (framesOf k past) f = some row →
        ∃ g, (framesOf k (visitsOf E pairs)).head? = some g ∧ time row = stamp f - stamp g := by
  obtain ⟨rfl, rfl, h1, v, hv, hk, ht, hm, _⟩ := processFile_ok E pairs ending file file' o h
  obtain ⟨_, k2, _, _⟩ := coreRun_known E (visitsOf E pairs) [] [] (Known.nil E) h1
  have htab : rows file' "dynamics" = (coreRun E (visitsOf E pairs) []).1.2 := by
    rw [ht]
    by_cases h0 : (coreRun E (visitsOf E pairs) []).1.2 = []
    · rcases hne with hne | hne
      · simp [h0, hne]
      · exact absurd ((expected_nil_iff E _ h1).2 h0) hne
    · simp [h0]
  refine ⟨by rw [htab, k2], by rw [htab, expected_length E _ h1], ?_⟩
  intro stamp time start htimed past k f rest row hvs hrow
  obtain ⟨g, g1, g2⟩ := outcome_time E stamp time start htimed (framesOf k past) f row
    (fun hne => known_prefix E _ past rest k f h1 hvs hne) hrow
  exact ⟨g, by rw [hvs]; exact framesOf_head k past rest f g g1, g2⟩

/-- When no tracker raises, the rows are in one-to-one correspondence with the visits. -/
theorem C26_all_rows (E : Env Φ D R ρ σ ν) (vs : List (ι × Φ)) : ∀ past : List (ι × Φ),
    (∀ a k f b, vs = a ++ (k, f) :: b → outcome E (framesOf k (past ++ a)) f ≠ none) →
    (expected E past vs).map Prod.fst = vs.map Prod.fst := by
  induction vs with
  | nil => intro past _; rfl
  | cons v vs ih =>
    intro past h
    obtain ⟨k, f⟩ := v
    have h0 := h [] k f vs rfl
    rw [List.append_nil] at h0
    cases ho : outcome E (framesOf k past) f with
    | none => exact absurd ho h0
    | some row =>
      simp only [expected, ho, Option.map_some, Option.toList_some, List.map_cons,
        List.cons_append, List.nil_append]
      rw [ih (past ++ [(k, f)])]
      intro a k' f' b hab
      have := h ((k, f) :: a) k' f' b (by rw [hab]; rfl)
      simpa using this

/-- Trackers that meet `Timed`: the frame is its time stamp, the dynamics the stamp of the first. -/
example : Timed (⟨fun _ => 1, fun n => .ok n, fun _ => .ok (), none, fun d n => (d, .ok (n - d)),
    fun _ _ => ((), none), fun _ => [()], .ok ()⟩ : Env Int Int Unit Int Unit Unit) id id id where
  new := by intro f d h; simpa using h.symm
  keep := fun _ _ => rfl
  row := by intro d f r h; simpa using h.symm

/-- Trackers that raise nothing but what `process_file` handles: ValueError or RuntimeError, on
being shown a frame. -/
structure Tame (E : Env Φ D R ρ σ ν) : Prop where
  newDyn : ∀ f, E.numPos f ≠ 0 → ∃ d, E.newDyn f = .ok d
  newRelax : ∀ f, E.numPos f ≠ 0 → ∃ r, E.newRelax f = .ok r
  custom : ∀ set, E.custom = some set → ∀ r, (set r).2 = none
  computeAll : ∀ d f e, (E.computeAll d f).2 = .error e → e = .valueError ∨ e = .runtimeError
  relaxAdd : ∀ r f e, (E.relaxAdd r f).2 = some e → e = .valueError ∨ e = .runtimeError
  simVars : ∃ v, E.simVars = .ok v

theorem tame_visit (E : Env Φ D R ρ σ ν) (hE : Tame E) (kf : Dict ι (D × R)) (k : ι) (f : Φ)
    (hf : E.numPos f ≠ 0) : ∃ kf' o, visit E kf k f = (kf', .ok o) ∧ kf' ≠ [] := by
  obtain ⟨d0, hd⟩ := hE.newDyn f hf
  obtain ⟨r0, hr⟩ := hE.newRelax f hf
  obtain ⟨v, hv⟩ := hE.simVars
  have hset : ∀ (d : Dict ι (D × R)) x, Dict.set d k x ≠ [] := by
    intro d x
    cases d with
    | nil => simp [Dict.set]
    | cons p d => simp only [Dict.set]; split <;> simp
  have hupd : ∀ dr : D × R, ∃ dr' o, update (ι := ι) E k dr f = (dr', .ok o) := by
    intro dr
    unfold update
    have h1 := hE.computeAll dr.1 f
    rcases hce : E.computeAll dr.1 f with ⟨d, e | row⟩
    · rcases h1 e (by rw [hce]) with rfl | rfl
      · exact ⟨(d, dr.2), none, rfl⟩
      · exact ⟨(d, dr.2), none, rfl⟩
    · have h2 := hE.relaxAdd dr.2 f
      simp only
      rcases hre : E.relaxAdd dr.2 f with ⟨r, _ | e⟩
      · simp only [hv]
        exact ⟨_, _, rfl⟩
      · rcases h2 e (by rw [hre]) with rfl | rfl
        · exact ⟨(d, r), none, rfl⟩
        · exact ⟨(d, r), none, rfl⟩
  unfold visit
  simp only [hd, hr]
  generalize (Dict.get? (Dict.setdefault kf k (d0, r0)) k).getD (d0, r0) = dr
  cases hc : E.custom with
  | none =>
    simp only
    obtain ⟨dr', o, ho⟩ := hupd (dr.1, dr.2)
    rw [ho]
    exact ⟨_, _, rfl, hset _ _⟩
  | some set =>
    have h3 := hE.custom set hc dr.2
    simp only
    rcases hs : set dr.2 with ⟨r1, _ | e⟩
    · simp only
      obtain ⟨dr', o, ho⟩ := hupd (dr.1, r1)
      rw [ho]
      exact ⟨_, _, rfl, hset _ _⟩
    · rw [hs] at h3
      simp at h3

theorem tame_core (E : Env Φ D R ρ σ ν) (hE : Tame E) : ∀ (vs : List (ι × Φ)) (kf : Dict ι (D × R)),
    (∀ v ∈ vs, E.numPos v.2 ≠ 0) → (coreRun E vs kf).2 = none ∧
      (kf ≠ [] ∨ vs ≠ [] → (coreRun E vs kf).1.1 ≠ []) := by
  intro vs
  induction vs with
  | nil => intro kf _; exact ⟨rfl, fun h => by simpa [coreRun] using h⟩
  | cons v vs ih =>
    intro kf h
    obtain ⟨kf', o, hv, hne⟩ := tame_visit E hE kf v.1 v.2 (h v (by simp))
    obtain ⟨h1, h2⟩ := ih kf' fun u hu => h u (List.mem_cons_of_mem _ hu)
    simp only [coreRun, hv]
    cases o with
    | none => exact ⟨h1, fun _ => h2 (Or.inl hne)⟩
    | some row => exact ⟨h1, fun _ => h2 (Or.inl hne)⟩

/-- **C26, handled errors.** A ValueError or RuntimeError of the trackers never ends the run:
provided there is a frame with positions and an index, the run returns. -/
theorem C26_survives (E : Env Φ D R ρ σ ν) (hE : Tame E) (pairs : List (List ι × Φ))
    (file : File (Rec ι ρ σ ν)) (hne : visitsOf E pairs ≠ []) :
    ∃ file', processFile E (some (pairs, none)) true file = (file', .ok none) := by
  obtain ⟨v, hv⟩ := hE.simVars
  obtain ⟨h1, h2⟩ := tame_core E hE (visitsOf E pairs) [] (by
    intro w hw
    simp only [visitsOf, List.mem_flatMap] at hw
    obtain ⟨p, _, hp⟩ := hw
    split at hp
    · simp at hp
    · rename_i h0
      simp only [List.mem_map] at hp
      obtain ⟨k, _, rfl⟩ := hp
      exact h0)
  exact processFile_returns E pairs file v h1 hv (h2 (Or.inr hne))

/-- Any other exception of the dynamics ends the run. -/
theorem C26_escapes (E : Env Φ D R ρ σ ν) (k : ι) (f : Φ) (ending : Option PyErr)
    (rest : List (List ι × Φ)) (file : File (Rec ι ρ σ ν)) (d : D) (r : R) (e : PyErr)
    (hf : E.numPos f ≠ 0) (hd : E.newDyn f = .ok d) (hr : E.newRelax f = .ok r)
    (hc : E.custom = none) (he : (E.computeAll d f).2 = .error e) (h1 : e ≠ .valueError)
    (h2 : e ≠ .runtimeError) :
    processFile E (some (([k], f) :: rest, ending)) true file = (file, .error e) := by
  have hh : handled e = false := by cases e <;> simp_all [handled]
  have hupd : (update (ι := ι) E k (d, r) f).2 = .error e := by
    unfold update
    rcases hce : E.computeAll d f with ⟨d', e' | row⟩
    · rw [hce] at he
      simp only [Except.error.injEq] at he
      subst he
      simp [afterRaise, hh]
    · rw [hce] at he
      simp at he
  have hv : (visit E ([] : Dict ι (D × R)) k f).2 = .error e := by
    unfold visit
    simp only [hd, hr, hc, Dict.setdefault, Dict.mem, Dict.get?, Dict.set, Option.isSome_none,
      Bool.false_eq_true, if_false, if_true, Option.getD_some]
    exact hupd
  have hi : ∀ c, (indexLoop E f [k] ⟨[], c, file⟩).2 = some e ∧
      (indexLoop E f [k] ⟨[], c, file⟩).1.file = file := by
    intro c
    simp only [indexLoop]
    rcases hvis : visit E ([] : Dict ι (D × R)) k f with ⟨kf, e' | o⟩
    · rw [hvis] at hv
      simp only [Except.error.injEq] at hv
      subst hv
      exact ⟨rfl, rfl⟩
    · rw [hvis] at hv
      simp at hv
  simp only [processFile, frameLoop, hf, if_false]
  obtain ⟨hi1, hi2⟩ := hi ⟨true, some "dynamics", 1, false, [], 8192, 0⟩
  rcases hloop : indexLoop E f [k] ⟨[], ⟨true, some "dynamics", 1, false, [], 8192, 0⟩, file⟩
    with ⟨s, _ | e'⟩
  · rw [hloop] at hi1
    simp at hi1
  · rw [hloop] at hi1 hi2
    simp only [Option.some.injEq] at hi1
    subst hi1
    simp only at hi2 ⊢
    rw [hi2]

/-- Trackers of which the dynamics always raise ValueError. -/
def failing : Env Unit Unit Unit Unit Unit Unit :=
  ⟨fun _ => 1, fun _ => .ok (), fun _ => .ok (), none, fun _ _ => ((), .error .valueError),
    fun _ _ => ((), none), fun _ => [()], .ok ()⟩

theorem failing_tame : Tame failing where
  newDyn := fun _ _ => ⟨(), rfl⟩
  newRelax := fun _ _ => ⟨(), rfl⟩
  custom := by intro set h; simp [failing] at h
  computeAll := by intro d f e h; simp only [failing, Except.error.injEq] at h; exact Or.inl h.symm
  relaxAdd := by intro r f e h; simp [failing] at h
  simVars := ⟨(), rfl⟩

example : ∃ file', processFile failing (some ([([0, 1], ())], none)) true
    ([] : File (Rec Nat Unit Unit Unit)) = (file', .ok none) :=
  C26_survives failing failing_tame _ _ (by simp [visitsOf, failing])

/-! ## C82 -/

/-- The property as stated: after a run that returns, the dynamics table holds rows of this input
only. -/
def FreshTable : Prop :=
  ∀ (E : Env Unit Unit Unit Unit Unit Unit) (pairs : List (List Nat × Unit))
    (file file' : File (Rec Nat Unit Unit Unit)),
    processFile E (some (pairs, none)) true file = (file', .ok none) →
    (rows file' "dynamics").filterMap dynPair = expected E [] (visitsOf E pairs)

/-- **C82 is false**: when every frame raises an error that is handled, nothing is written and the
rows of an earlier run stay in the file, beside the new molecular relaxations. -/
theorem C82_stale_refuted : ¬ FreshTable := by
  intro h
  obtain ⟨file', hf⟩ := C26_survives (ι := Nat) failing failing_tame [([0], ())]
    [("dynamics", [.dyn 7 () ()])] (by simp [visitsOf, failing])
  have h1 := h failing [([0], ())] [("dynamics", [.dyn 7 () ()])] file' hf
  obtain ⟨_, _, _, _, _, _, ht, _⟩ := processFile_ok failing _ _ _ _ _ hf
  rw [ht] at h1
  revert h1
  decide

/-- **C82, the part that holds.**  Missing for the full statement: inputs of which no frame gives a
row, on a file that already has a dynamics table. -/
theorem C82_fresh_partial (E : Env Φ D R ρ σ ν) (pairs : List (List ι × Φ)) (ending : Option PyErr)
    (file file' : File (Rec ι ρ σ ν)) (o : Option (List (Rec ι ρ σ ν)))
    (h : processFile E (some (pairs, ending)) true file = (file', .ok o))
    (hne : expected E [] (visitsOf E pairs) ≠ []) :
    (rows file' "dynamics").filterMap dynPair = expected E [] (visitsOf E pairs) ∧
      (rows file' "dynamics").length = (expected E [] (visitsOf E pairs)).length :=
  ⟨(C26_rows E pairs ending file file' o h (Or.inr hne)).1,
    (C26_rows E pairs ending file file' o h (Or.inr hne)).2.1⟩

/-! ## C27 -/

section relax
open Verif.Relax
variable {K : Type} [Field K] [LinearOrder K]

/-- What the relaxations of a keyframe should be: those of the definitions, shown all of the frames,
with times from the first. -/
def allFrames (n : Nat) (defs : List (Def K)) (f : MFrame K) (fs : List (MFrame K)) :
    Dict String (List Int) :=
  Relax.summary (runAll (setMolRelax n [] defs).1
    ((f :: fs).map (fun g => (g.1 - f.1, g.2.1, g.2.2)))).1

/-- The property as stated, for trajectories with a fixed number of molecules and valid
definitions. -/
def CustomAccumulates (K : Type) [Field K] [LinearOrder K] : Prop :=
  ∀ (dist pi : K) (n : Nat) (defs : List (Def K)) (f : MFrame K) (fs : List (MFrame K)),
    0 ≤ dist → 0 ≤ pi → (∀ d ∈ defs, Valid d) →
    (∀ g ∈ f :: fs, g.2.1.length = n ∧ g.2.2.length = n) →
    soloSummary (relaxEnv dist pi (some defs)) (f :: fs) = allFrames n defs f fs

/-- **C27 is false**: the custom relaxations are made anew for every frame.  A molecule that has
moved by 2 in the second frame and is back in the third has not relaxed according to `process_file`,
although it passed the threshold of 1. -/
theorem C27_custom_accumulates_refuted : ¬ CustomAccumulates ℚ := by
  intro h
  have := h 1 1 1 [⟨some "tau", some (some (some 1)), false, none, none⟩] (0, [some 0], [some 0])
    [(5, [some 2], [some 0]), (6, [some 0], [some 0])] (by decide) (by decide) (by
      intro d hd
      simp only [List.mem_singleton] at hd
      subst hd
      exact ⟨⟨_, rfl⟩, ⟨_, rfl, by rintro y ⟨⟩; decide⟩, by simp, by simp⟩) (by decide)
  revert this
  decide +kernel

variable [IsStrictOrderedRing K]

/-- **C27, what happens instead.**  Missing for the full statement: all frames but the last are
forgotten, so a relaxation time is the time of the last frame if the molecule is then beyond the
threshold, and `2**32-1` otherwise. -/
theorem C27_custom_accumulates_partial (dist pi : K) (n : Nat) (defs : List (Def K))
    (f : MFrame K) (fs : List (MFrame K)) (g : MFrame K) (hd : 0 ≤ dist) (hp : 0 ≤ pi)
    (hn : f.2.1.length = n) (hlast : (f :: fs).getLast? = some g) :
    soloSummary (relaxEnv dist pi (some defs)) (f :: fs) =
      Relax.summary (runAll (setMolRelax n [] defs).1 [(g.1 - f.1, g.2.1, g.2.2)]).1 := by
  obtain ⟨r0, hr0, hinit, hnum⟩ : ∃ r0, Rel.new dist pi f = .ok r0 ∧ r0.init = f.1 ∧ r0.num = n := by
    unfold Rel.new
    rw [defaults_dict _ [] dist pi hd hp]
    exact ⟨_, rfl, rfl, hn⟩
  have hstep : ∀ (s : Unit × Rel K) (x : MFrame K),
      (soloStep (relaxEnv dist pi (some defs)) s x).1 = ((), ((s.2.set defs).1.add x).1) := by
    intro s x
    simp only [soloStep, relaxEnv, Option.map_some]
    rcases (Rel.add (Rel.set defs s.2).1 x) with ⟨r, e⟩
    cases e <;> rfl
  -- the state after the frames
  have hfold : ∀ (l : List (MFrame K)) (s : (Unit × Rel K) × List Unit), s.1.2.init = f.1 →
      s.1.2.num = n → ∀ x, l.getLast? = some x →
      (l.foldl (fun s f => ((soloStep (relaxEnv dist pi (some defs)) s.1 f).1,
        s.2 ++ (soloStep (relaxEnv dist pi (some defs)) s.1 f).2.toList)) s).1.2.relax =
        (addLoop (x.1 - f.1) x.2.1 x.2.2 (setMolRelax n [] defs).1).1 := by
    intro l
    induction l with
    | nil => intro s _ _ x hx; simp at hx
    | cons y l ih =>
      intro s h1 h2 x hx
      rw [List.foldl_cons]
      cases l with
      | nil =>
        simp only [List.getLast?_singleton, Option.some.injEq] at hx
        subst hx
        simp only [List.foldl_nil, hstep, Rel.add, Rel.set, h1, h2]
        rfl
      | cons z l =>
        apply ih
        · rw [hstep]; exact h1
        · rw [hstep]; exact h2
        · simpa using hx
  have hsolo : solo (relaxEnv dist pi (some defs)) (f :: fs) =
      some ((f :: fs).foldl (fun s f => ((soloStep (relaxEnv dist pi (some defs)) s.1 f).1,
        s.2 ++ (soloStep (relaxEnv dist pi (some defs)) s.1 f).2.toList)) (((), r0), [])) := by
    have h1 : (relaxEnv dist pi (some defs)).newRelax f = .ok r0 := hr0
    have h2 : (relaxEnv dist pi (some defs)).newDyn f = .ok () := rfl
    simp only [solo, h1, h2]
  rw [soloSummary, hsolo]
  simp only [Option.map_some, Option.getD_some]
  have hsum : ∀ r : Rel K, (relaxEnv dist pi (some defs)).summary r = Relax.summary r.relax :=
    fun _ => rfl
  rw [hsum, hfold (f :: fs) _ hinit hnum g hlast]
  unfold runAll
  rcases addLoop (g.1 - f.1) g.2.1 g.2.2 (setMolRelax n [] defs).1 with ⟨d, e⟩
  cases e <;> rfl

/-- Without custom definitions the default relaxations do see all of the frames. -/
theorem C27_default_accumulates (dist pi : K) (n : Nat) (f : MFrame K) (fs : List (MFrame K))
    (hd : 0 ≤ dist) (hp : 0 ≤ pi) (hn : ∀ g ∈ f :: fs, g.2.1.length = n ∧ g.2.2.length = n) :
    soloSummary (relaxEnv dist pi none) (f :: fs) = allFrames n (defaults dist pi) f fs := by
  have hdict := defaults_dict n ([] : Dict String (MolRelax K)) dist pi hd hp
  have hn0 : f.2.1.length = n := (hn f (by simp)).1
  have hr0 : Rel.new dist pi f = .ok ⟨f.1, n, (setMolRelax n [] (defaults dist pi)).1⟩ := by
    unfold Rel.new
    rw [hn0, hdict]
  have hstep : ∀ (s : Unit × Rel K) (x : MFrame K),
      (soloStep (relaxEnv dist pi none) s x).1 = ((), (s.2.add x).1) := by
    intro s x
    simp only [soloStep, relaxEnv, Option.map_none]
    rcases (Rel.add s.2 x) with ⟨r, e⟩
    cases e <;> rfl
  have hfold : ∀ (l : List (MFrame K)), (∀ g ∈ l, g.2.1.length = n ∧ g.2.2.length = n) →
      ∀ (s : (Unit × Rel K) × List Unit), s.1.2.init = f.1 → (∀ p ∈ s.1.2.relax, p.2.size = n) →
      (l.foldl (fun s f => ((soloStep (relaxEnv dist pi none) s.1 f).1,
        s.2 ++ (soloStep (relaxEnv dist pi none) s.1 f).2.toList)) s).1.2.relax =
        (runAll s.1.2.relax (l.map (fun g => (g.1 - f.1, g.2.1, g.2.2)))).1 := by
    intro l
    induction l with
    | nil => intro _ s _ _; rfl
    | cons y l ih =>
      intro hl s h1 h2
      obtain ⟨hy1, hy2⟩ := hl y (by simp)
      obtain ⟨d', a, b⟩ := addLoop_ok n (y.1 - f.1) y.2.1 y.2.2 hy1 hy2 s.1.2.relax h2
      have hd' : ∀ p ∈ d', p.2.size = n := by
        intro p hp'
        clear a h2
        generalize s.1.2.relax = dd at b
        induction b with
        | nil => simp at hp'
        | cons hab _ ih2 =>
          rcases List.mem_cons.1 hp' with rfl | hp'
          · exact hab.2.1
          · exact ih2 hp'
      rw [List.foldl_cons, List.map_cons, runAll, a]
      simp only
      have hs : (soloStep (relaxEnv dist pi none) s.1 y).1 = ((), { s.1.2 with relax := d' }) := by
        rw [hstep]
        simp [Rel.add, h1, a]
      rw [ih (fun g hg => hl g (List.mem_cons_of_mem _ hg)) _ (by rw [hs]; exact h1)
        (by rw [hs]; exact hd'), hs]
  have hsolo : solo (relaxEnv dist pi none) (f :: fs) =
      some ((f :: fs).foldl (fun s f => ((soloStep (relaxEnv dist pi none) s.1 f).1,
        s.2 ++ (soloStep (relaxEnv dist pi none) s.1 f).2.toList))
        (((), ⟨f.1, n, (setMolRelax n [] (defaults dist pi)).1⟩), [])) := by
    have h1 : (relaxEnv dist pi none).newRelax f =
      .ok ⟨f.1, n, (setMolRelax n [] (defaults dist pi)).1⟩ := hr0
    have h2 : (relaxEnv dist pi none).newDyn f = .ok () := rfl
    simp only [solo, h1, h2]
  rw [soloSummary, hsolo]
  simp only [Option.map_some, Option.getD_some]
  have hsum : ∀ r : Rel K, (relaxEnv dist pi none).summary r = Relax.summary r.relax :=
    fun _ => rfl
  rw [hsum, hfold (f :: fs) hn _ rfl (by
    rw [hdict]; simp [MolRelax.size, First.new, Last.new])]
  rfl

example : soloSummary (relaxEnv (K := ℚ) 1 3 none) [(10, [some 0], [some 0]),
    (15, [some 2], [some 0]), (16, [some 0], [some 0])] =
    [("tau_D", [2^32-1]), ("tau_F", [5]), ("tau_L", [2^32-1]), ("tau_T2", [2^32-1]),
     ("tau_T3", [2^32-1]), ("tau_T4", [2^32-1])] := by decide +kernel

end relax

/-! ## C28 -/

/-- **C28.** A second run with the same input, on the file left by the first, has the same result
and leaves every table as it was; and no run touches any other table.  This includes runs that
fail. -/
theorem C28_rerun_idempotent (E : Env Φ D R ρ σ ν)
    (iter : Option (List (List ι × Φ) × Option PyErr)) (file : File (Rec ι ρ σ ν)) :
    (processFile E iter true (processFile E iter true file).1).2 = (processFile E iter true file).2 ∧
    (∀ g, Dict.get? (processFile E iter true (processFile E iter true file).1).1 g =
      Dict.get? (processFile E iter true file).1 g) ∧
    (∀ g, g ≠ "dynamics" → g ≠ "molecular_relaxations" →
      Dict.get? (processFile E iter true file).1 g = Dict.get? file g) := by
  cases iter with
  | none => exact ⟨rfl, fun _ => rfl, fun _ _ _ => rfl⟩
  | some it =>
    obtain ⟨pairs, ending⟩ := it
    -- one run, described through the cache
    have hrun : ∀ (f0 f1 : File (Rec ι ρ σ ν)) (c : WriteCache (Rec ι ρ σ ν)),
        runOps ((coreRun E (visitsOf E pairs) []).1.2.map .append) (fresh "dynamics" 1 false, f0) =
          ((c, f1), none) →
        processFile E (some (pairs, ending)) true f0 =
          (match (coreRun E (visitsOf E pairs) []).2 with
          | some e => (f1, .error e)
          | none => match ending with
            | some e => (f1, .error e)
            | none => finishFile E ⟨(coreRun E (visitsOf E pairs) []).1.1, c, f1⟩) := by
      intro f0 f1 c hc
      obtain ⟨c', f1', h1, h2⟩ := loop_file E pairs f0
      rw [hc] at h2
      simp only [Prod.mk.injEq, and_true] at h2
      obtain ⟨rfl, rfl⟩ := h2
      simp only [processFile]
      rw [h1]
      cases (coreRun E (visitsOf E pairs) []).2 with
      | some e => rfl
      | none => cases ending <;> rfl
    set l := (coreRun E (visitsOf E pairs) []).1.2 with hl
    set kf := (coreRun E (visitsOf E pairs) []).1.1 with hkf
    set F2 := (processFile E (some (pairs, ending)) true file).1 with hF2
    obtain ⟨c, g1, g2, h1, h2, h3, h4, h5⟩ := appends_indep l file F2
    have hoth : ∀ (f0 f1 : File (Rec ι ρ σ ν)) (c : WriteCache (Rec ι ρ σ ν)),
        runOps (l.map .append) (fresh "dynamics" 1 false, f0) = ((c, f1), none) →
        ∀ g, g ≠ "dynamics" → Dict.get? f1 g = Dict.get? f0 g := by
      intro f0 f1 c hc
      obtain ⟨s, a, b, _⟩ := appends_ok l f0
      rw [hc] at a
      simp only [Prod.mk.injEq, and_true] at a
      rw [← a] at b
      exact b.other
    have r1 := hrun file g1 c h1
    have r2 := hrun F2 g2 c h2
    have hr1 : F2 = (processFile E (some (pairs, ending)) true file).1 := hF2
    -- the flush at the end
    have hfl : ∀ f : File (Rec ι ρ σ ν), ∃ c', c.flush f =
        ((c', toHdfTable f "dynamics" c.cache c.toAppend), none) := by
      intro f
      exact ⟨{ c with toAppend := true, cache := [] }, by simp [WriteCache.flush, h3, h4]⟩
    have htab : ∀ f : File (Rec ι ρ σ ν), ∀ g, g ≠ "dynamics" →
        Dict.get? (toHdfTable f "dynamics" c.cache c.toAppend) g = Dict.get? f g := by
      intro f g hg
      unfold toHdfTable
      split
      · rfl
      · split <;> rw [Dict.get?_set, if_neg (fun e => hg e.symm)]
    have hfin : ∀ f : File (Rec ι ρ σ ν), finishFile E ⟨kf, c, f⟩ =
        (if kf.isEmpty then (toHdfTable f "dynamics" c.cache c.toAppend, .error .valueError)
        else match E.simVars with
          | .error e => (toHdfTable f "dynamics" c.cache c.toAppend, .error e)
          | .ok v => (toHdfFixed (toHdfTable f "dynamics" c.cache c.toAppend)
              "molecular_relaxations" (molRows E kf v), .ok none)) := by
      intro f
      obtain ⟨c', hc'⟩ := hfl f
      simp only [finishFile, hc']
      rfl
    -- the table of dynamics after the flushes
    have hdyn : ∀ fin1 : Option (List (Rec ι ρ σ ν)),
        (c.toAppend = true ∧ Dict.get? g1 "dynamics" = Dict.get? g2 "dynamics" ∨
          c.toAppend = false ∧ g1 = file ∧ g2 = F2) →
        Dict.get? (toHdfTable g1 "dynamics" c.cache c.toAppend) "dynamics" = fin1 →
        (c.toAppend = false → Dict.get? F2 "dynamics" = fin1) →
        Dict.get? (toHdfTable g2 "dynamics" c.cache c.toAppend) "dynamics" = fin1 := by
      intro fin1 hh ha hb
      rcases hh with ⟨ht, hg⟩ | ⟨ht, rfl, rfl⟩
      · rw [← ha]
        simp only [toHdfTable, ht, if_true]
        split
        · exact hg.symm
        · simp [Dict.get?_set, rows, hg]
      · rw [← ha]
        simp only [toHdfTable, ht]
        by_cases he : c.cache.isEmpty = true
        · simp only [he, if_true]
          rw [hb ht, ← ha]
          simp [toHdfTable, he]
        · simp [he, Dict.get?_set]
    cases herr : (coreRun E (visitsOf E pairs) []).2 with
    | some e =>
      rw [herr] at r1 r2
      simp only at r1 r2
      have hF : F2 = g1 := by rw [hr1, r1]
      refine ⟨by rw [r2, r1], ?_, ?_⟩
      · intro g
        rw [r2]
        by_cases hg : g = "dynamics"
        · subst hg
          rcases h5 with ⟨_, h5⟩ | ⟨_, _, h5⟩
          · rw [← h5, hF]
          · rw [h5]
        · exact hoth F2 g2 c h2 g hg
      · intro g hg _
        rw [hF]
        exact hoth file g1 c h1 g hg
    | none =>
      cases ending with
      | some e =>
        rw [herr] at r1 r2
        simp only at r1 r2
        have hF : F2 = g1 := by rw [hr1, r1]
        refine ⟨by rw [r2, r1], ?_, ?_⟩
        · intro g
          rw [r2]
          by_cases hg : g = "dynamics"
          · subst hg
            rcases h5 with ⟨_, h5⟩ | ⟨_, _, h5⟩
            · rw [← h5, hF]
            · rw [h5]
          · exact hoth F2 g2 c h2 g hg
        · intro g hg _
          rw [hF]
          exact hoth file g1 c h1 g hg
      | none =>
        rw [herr] at r1 r2
        simp only at r1 r2
        rw [hfin] at r1 r2
        by_cases hk : kf.isEmpty = true
        · rw [if_pos hk] at r1 r2
          have hF : F2 = toHdfTable g1 "dynamics" c.cache c.toAppend := by rw [hr1, r1]
          refine ⟨by rw [r2, r1], ?_, ?_⟩
          · intro g
            rw [r2]
            by_cases hg : g = "dynamics"
            · subst hg
              exact hdyn _ h5 (by rw [hF]) (fun _ => rfl)
            · rw [htab g2 g hg]
              exact hoth F2 g2 c h2 g hg
          · intro g hg _
            rw [hF, htab g1 g hg]
            exact hoth file g1 c h1 g hg
        · rw [if_neg hk] at r1 r2
          cases hv : E.simVars with
          | error e =>
            rw [hv] at r1 r2
            simp only at r1 r2
            have hF : F2 = toHdfTable g1 "dynamics" c.cache c.toAppend := by rw [hr1, r1]
            refine ⟨by rw [r2, r1], ?_, ?_⟩
            · intro g
              rw [r2]
              by_cases hg : g = "dynamics"
              · subst hg
                exact hdyn _ h5 (by rw [hF]) (fun _ => rfl)
              · rw [htab g2 g hg]
                exact hoth F2 g2 c h2 g hg
            · intro g hg _
              rw [hF, htab g1 g hg]
              exact hoth file g1 c h1 g hg
          | ok v =>
            rw [hv] at r1 r2
            simp only at r1 r2
            have hF : F2 = toHdfFixed (toHdfTable g1 "dynamics" c.cache c.toAppend)
                "molecular_relaxations" (molRows E kf v) := by rw [hr1, r1]
            refine ⟨by rw [r2, r1], ?_, ?_⟩
            · intro g
              rw [r2]
              unfold toHdfFixed
              rw [Dict.get?_set]
              by_cases hm : "molecular_relaxations" = g
              · subst hm
                rw [if_pos rfl, hF]
                simp [toHdfFixed, Dict.get?_set]
              · rw [if_neg hm]
                by_cases hg : g = "dynamics"
                · subst hg
                  refine hdyn _ h5 ?_ (fun _ => rfl)
                  rw [hF]
                  unfold toHdfFixed
                  rw [Dict.get?_set, if_neg hm]
                · rw [htab g2 g hg]
                  exact hoth F2 g2 c h2 g hg
            · intro g hg hg2
              rw [hF]
              unfold toHdfFixed
              rw [Dict.get?_set, if_neg (fun e => hg2 e.symm), htab g1 g hg]
              exact hoth file g1 c h1 g hg

/-- A run on a file with an old table and a foreign one. -/
example : (processFile idle (some ([([0], ()), ([0], ())], none)) true
    [("dynamics", [.dyn 9 () ()]), ("other", [])]).1 =
    [("dynamics", [.dyn 0 () (), .dyn 0 () ()]), ("other", []),
     ("molecular_relaxations", [.mol 0 0 () ()])] := by rfl

end Verif.Process
