import Verif.Pipeline.LaterLemmas
import Verif.Pipeline.ReaderProps
/-!
# C153: trajectories that do not start at step 0
-/

namespace Verif.Pipeline

open Verif.Motion Verif.Dynamics Verif.Gsd Verif.StepSize Verif.Process Verif.Cache

variable {ν : Type}

/-- The full statement: with `c` more steps on the counter throughout, the same frames are read with the same
keyframes. -/
def LaterSame (linear : Option Int) : Prop :=
  ∀ (raws : List (Raw Unit)) (m interval kmax c : Int), OnlyCorrupt raws → Increasing (readable raws) →
    0 ≤ m → 1 ≤ interval → 0 ≤ c →
    readGsd (laterFile c raws) (some (m + c)) linear interval kmax =
      ((readGsd raws (some m) linear interval kmax).1.map (fun p => (p.1, later c p.2)),
        (readGsd raws (some m) linear interval kmax).2)

/-- **C153, the trackers.**  Whatever the reader yields: only differences of steps are used.  With `c` more steps on
the counter, `process_file` writes, returns or raises the same. -/
theorem C153_trackers (a : Args) (vars : Except PyErr ν) (pairs : List (List ℕ × GFrame PData))
    (ending : Option PyErr) (c : ℤ) (outfile : Bool)
    (file : File (Rec ℕ (Dict Quantity Val) (Dict String ℤ) ν)) :
    processFile (env a vars) (some (pairs.map (fun p => (p.1, later c p.2)), ending)) outfile file =
      processFile (env a vars) (some (pairs, ending)) outfile file :=
  processFile_map (alike_later a vars c) pairs ending outfile file

/-- The frames of the example run with 1000 more steps on the counter. -/
example : tPairs.map (fun p => (p.1, (later 1000 p.2).timestep)) =
    [([0], 1005), ([0], 1008), ([0, 1], 1011), ([0, 1], 1014), ([0, 1], 1017), ([0, 1], 1020)] := by
  simp [tPairs, List.range_succ, later, gf, tT]

/-- **C153, linear steps, proved part.**  The full statement is `LaterSame none`.  It holds when `c` is a multiple of
the keyframe interval, and then everything that `process_file` does is the same.  Missing: other `c`, of which it is
false (`C153_linear_refuted`). -/
theorem C153_linear_partial (a : Args) (vars : Except PyErr ν) (raws : List (Raw PData)) (stepsMax : Option Int)
    (interval kmax c : Int) (hc : interval ∣ c) (outfile : Bool)
    (file : File (Rec ℕ (Dict Quantity Val) (Dict String ℤ) ν)) :
    readGsd (laterFile c raws) (stepsMax.map (· + c)) none interval kmax =
      ((readGsd raws stepsMax none interval kmax).1.map (fun p => (p.1, later c p.2)),
        (readGsd raws stepsMax none interval kmax).2) ∧
    processGsd a vars (laterFile c raws) (stepsMax.map (· + c)) none interval kmax outfile file =
      processGsd a vars raws stepsMax none interval kmax outfile file := by
  have e := readLinear_later hc raws stepsMax kmax
  refine ⟨e, ?_⟩
  unfold processGsd
  rw [e]
  exact C153_trackers a vars _ _ c outfile file

/-- Steps 0, 1, 2, 4, 5, and the same from 2000 on; keyframes every 2 steps. -/
example (d : PData) : (2 : Int) ∣ 2000 ∧
    (readable (laterFile 2000 (cFile d))).map (·.timestep) = [2000, 2001, 2002, 2004, 2005] := by
  simp [laterFile, cFile, readable, later, Except.map]

/-- Every keyframe starts at a multiple of the interval within the run. -/
theorem firstStep_mul {m linear interval kmax : Int} (hm0 : 0 ≤ m) (hl : 1 ≤ linear) (hi : 1 ≤ interval) {i : ℕ}
    {st : Int} (h : firstStep (seriesList m linear interval kmax) i = some st) :
    ∃ q : ℕ, st = q * interval ∧ (q : Int) * interval ≤ m := by
  rw [C08_keyframes_at_multiples m linear interval kmax hm0 hl hi i] at h
  have hmem := List.mem_of_getElem? h
  have hmem := List.mem_of_mem_take hmem
  rw [List.mem_filter] at hmem
  obtain ⟨h1, h2⟩ := hmem
  obtain ⟨starts', hT, _⟩ := series_trace m linear interval kmax hl (by omega) hm0
  obtain ⟨_, h3, h4⟩ := hT.range st h1
  obtain ⟨q, hq⟩ := of_decide_eq_true h2
  have hq0 : 0 ≤ q := by
    by_contra hneg
    have : interval * q < 0 := mul_neg_of_pos_of_neg (by omega) (by omega)
    omega
  refine ⟨q.toNat, ?_, ?_⟩
  · rw [Int.toNat_of_nonneg hq0, hq, mul_comm]
  · rw [Int.toNat_of_nonneg hq0, mul_comm, ← hq]
    exact h4

theorem wants_later (m linear st x c : Int) : Wants (m + c) linear (st + c) (x + c) ↔ Wants m linear st x := by
  unfold Wants
  rw [show x + c - (st + c) = x - st by ring]
  constructor
  · rintro (h | ⟨h1, h2, h3⟩)
    · exact Or.inl (by omega)
    · exact Or.inr ⟨by omega, by omega, h3⟩
  · rintro (h | ⟨h1, h2, h3⟩)
    · exact Or.inl (by omega)
    · exact Or.inr ⟨by omega, by omega, h3⟩

/-- **C153, exponential steps, frames, proved part.**  The full statement is `LaterSame (some linear)`.  What holds: with
`j` keyframe intervals more on the counter, the keyframe `k + j` has the frames that `k` had, provided that the interval
is itself on the series of steps (C09), that every frame is on the series, and that there are keyframes enough.  Missing:
the keyframes below `j`, which are there in addition (`C153_exponential_refuted`), and other numbers of steps. -/
theorem C153_exponential_frames_partial (a : Args) (vars : Except PyErr ν) (raws : List (Raw PData))
    (m interval kmax linear : Int) (j : ℕ) (hc : OnlyCorrupt raws) (hinc : Increasing (readable raws))
    (hm0 : 0 ≤ m) (hi : 1 ≤ interval) (hl : 1 ≤ linear) (hgrid : OnGrid linear interval)
    (hkeys : m + j * interval < kmax * interval)
    (h : ∀ f ∈ readable raws, f.timestep ≤ m → f.timestep ∈ (seriesList m linear interval kmax).map Prod.fst)
    (k : ℕ) (hk : k * interval ≤ m) :
    framesOf (k + j) (visitsOf (env a vars)
      (readGsd (laterFile (j * interval) raws) (some (m + j * interval)) (some linear) interval kmax).1) =
    (framesOf k (visitsOf (env a vars) (readGsd raws (some m) (some linear) interval kmax).1)).map
      (later (j * interval)) := by
  have hj0 : 0 ≤ (j : Int) * interval := by positivity
  have hstart : ∀ q : ℕ, (q : Int) * interval ≤ m →
      firstStep (seriesList (m + j * interval) linear interval kmax) (q + j) = some (q * interval + j * interval) := by
    intro q hq
    have hlt : ((q + j : ℕ) : Int) * interval < kmax * interval := by
      push_cast
      rw [add_mul]
      omega
    have hlt := lt_of_mul_lt_mul_right hlt (by omega)
    rw [C09_keyframes_regular_partial (m + j * interval) linear interval kmax (by omega) hl hi hgrid (q + j)
      (lt_of_lt_of_le hlt (le_max_right _ _)) (by push_cast; rw [add_mul]; omega)]
    push_cast
    rw [add_mul]
  have hstart0 : firstStep (seriesList m linear interval kmax) k = some (k * interval) := by
    have hlt : (k : Int) * interval < kmax * interval := by omega
    have hlt := lt_of_mul_lt_mul_right hlt (by omega)
    exact C09_keyframes_regular_partial m linear interval kmax hm0 hl hi hgrid k
      (lt_of_lt_of_le hlt (le_max_right _ _)) hk
  rw [C96_exponential_frames a vars raws m interval kmax linear hc hinc hm0 hi hl (Or.inl h) k,
    C96_exponential_frames a vars (laterFile (j * interval) raws) (m + j * interval) interval kmax linear
      (corrupt_later _ hc) (by rw [readable_later]; exact increasing_later _ hinc) (by omega) hi hl (Or.inl ?_) (k + j),
    readable_later, List.filter_map]
  · congr 1
    apply List.filter_congr
    intro f _
    simp only [Function.comp_apply, later]
    refine decide_eq_decide.2 (and_congr Iff.rfl ?_)
    rw [hstart k hk, hstart0]
    constructor
    · rintro ⟨st, h1, h2, h3⟩
      obtain rfl := Option.some.inj h1
      exact ⟨_, rfl, by omega, (wants_later _ _ _ _ _).1 h3⟩
    · rintro ⟨st, h1, h2, h3⟩
      obtain rfl := Option.some.inj h1
      exact ⟨_, rfl, by omega, (wants_later _ _ _ _ _).2 h3⟩
  · intro f hf hfm
    rw [readable_later] at hf
    obtain ⟨g, hg, rfl⟩ := List.mem_map.1 hf
    simp only [later] at hfm ⊢
    obtain ⟨i, st, h1, h2⟩ := (C06_series_is_union m linear interval kmax hm0 hl hi g.timestep).1
      (h g hg (by omega))
    obtain ⟨q, rfl, hq⟩ := firstStep_mul hm0 hl hi h1
    exact (C06_series_is_union (m + j * interval) linear interval kmax (by omega) hl hi (g.timestep + j * interval)).2
      ⟨q + j, _, hstart q hq, (wants_later _ _ _ _ _).2 h2⟩

/-- The hypotheses for steps 0, 1, 2, 4, 5 with keyframes every 2 steps, and 6 steps more. -/
example (d : PData) : OnlyCorrupt (cFile d) ∧ Increasing (readable (cFile d)) ∧ OnGrid 10 2 ∧
    (5 : Int) + (3 : ℕ) * 2 < 10 * 2 ∧
    (∀ f ∈ readable (cFile d), f.timestep ≤ 5 → f.timestep ∈ (seriesList 5 10 2 10).map Prod.fst) ∧
    (readGsd (laterFile 6 (sample [0, 1, 2, 4, 5])) (some 11) (some 10) 2 10).1.map (fun p => (p.1, p.2.timestep)) =
      [([0, 1, 2, 3], 6), ([0, 1, 2, 3], 7), ([0, 1, 2, 3, 4], 8), ([0, 1, 2, 3, 4, 5], 10),
        ([0, 1, 2, 3, 4, 5], 11)] := by
  refine ⟨?_, ?_, ⟨0, 2, by decide, by decide, Or.inl rfl⟩, by decide, ?_, by decide⟩
  · intro r hr e he
    subst he
    simpa [cFile] using hr
  · simp [cFile, readable, Increasing]
  · have : ∀ x ∈ ([0, 1, 2, 4, 5] : List Int), x ∈ (seriesList 5 10 2 10).map Prod.fst := by decide
    intro f hf _
    apply this
    simp only [cFile, readable, List.filterMap_cons, List.filterMap_nil, List.mem_cons, List.not_mem_nil,
      or_false] at hf
    rcases hf with rfl | rfl | rfl | rfl | rfl <;> simp

/-- **C153, exponential steps, tables, proved part.**  Under the same hypotheses, the rows of dynamics and of the molecular
relaxations of keyframe `k + j` in the one file are those of keyframe `k` in the other. -/
theorem C153_exponential_tables_partial (a : Args) (vars : Except PyErr ν) (raws : List (Raw PData))
    (m interval kmax linear : Int) (j : ℕ) (hc : OnlyCorrupt raws) (hinc : Increasing (readable raws))
    (hm0 : 0 ≤ m) (hi : 1 ≤ interval) (hl : 1 ≤ linear) (hgrid : OnGrid linear interval)
    (hkeys : m + j * interval < kmax * interval)
    (h : ∀ f ∈ readable raws, f.timestep ≤ m → f.timestep ∈ (seriesList m linear interval kmax).map Prod.fst)
    (k : ℕ) (hk : k * interval ≤ m) {file file' : File (Rec ℕ (Dict Quantity Val) (Dict String ℤ) ν)}
    {o o' : Option (List (Rec ℕ (Dict Quantity Val) (Dict String ℤ) ν))}
    (h1 : processGsd a vars raws (some m) (some linear) interval kmax true [] = (file, .ok o))
    (h2 : processGsd a vars (laterFile (j * interval) raws) (some (m + j * interval)) (some linear) interval kmax
      true [] = (file', .ok o')) :
    (rows file' "dynamics").filterMap (dynOf (k + j)) = (rows file "dynamics").filterMap (dynOf k) ∧
    (rows file' "molecular_relaxations").filterMap (molOf (k + j)) =
      (rows file "molecular_relaxations").filterMap (molOf k) := by
  have e := C153_exponential_frames_partial a vars raws m interval kmax linear j hc hinc hm0 hi hl hgrid hkeys h k hk
  unfold processGsd at h1 h2
  generalize readGsd raws (some m) (some linear) interval kmax = p1 at h1 e
  generalize readGsd (laterFile (j * interval) raws) (some (m + j * interval)) (some linear) interval kmax = p2 at h2 e
  obtain ⟨d1, r1⟩ := C25_keyframes_isolated (env a vars) p1.1 p1.2 _ _ _ h1 (Or.inl rfl) k
  obtain ⟨d2, r2⟩ := C25_keyframes_isolated (env a vars) p2.1 p2.2 _ _ _ h2 (Or.inl rfl) (k + j)
  have H := alike_later a vars (j * interval)
  rw [d1, d2, r1, r2, e, soloRows_map H, soloSummary_map H]
  exact ⟨rfl, rfl⟩

/-- **C153 refuted, exponential steps.**  Of the steps 0, 1, 2 all are read; of 100, 101, 102 the middle one is not
when there is a single keyframe, which still starts at step 0. -/
theorem C153_exponential_refuted : ¬ LaterSame (some 10) := by
  intro h
  have := h (sample [0, 1, 2]) 2 100 1 100 (onlyCorrupt_sample _) (by unfold Increasing; decide) (by decide)
    (by decide) (by decide)
  revert this
  decide

/-- **C153 refuted, linear steps.**  With one step more on the counter the first frame no longer starts a keyframe and is
not used. -/
theorem C153_linear_refuted : ¬ LaterSame none := by
  intro h
  have := h (sample [0, 1, 2]) 2 2 5 1 (onlyCorrupt_sample _) (by unfold Increasing; decide) (by decide)
    (by decide) (by decide)
  revert this
  decide

/-- What the readers yield in these cases. -/
example : (readGsd (laterFile 100 (sample [0, 1, 2])) (some 102) (some 10) 100 1).1.map
      (fun p => (p.1, p.2.timestep)) = [([0], 100), ([0], 102)] ∧
    (readGsd (laterFile 1 (sample [0, 1, 2])) (some 3) none 2 5).1.map (fun p => (p.1, p.2.timestep)) =
      [([], 1), ([0], 2), ([0], 3)] := by decide

end Verif.Pipeline
