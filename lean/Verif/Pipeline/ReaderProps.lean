import Verif.Pipeline.ReaderLemmas
import Verif.Pipeline.Props
/-!
# Properties of the whole of `process_file` on gsd files, C96 and C97
-/

namespace Verif.Pipeline

open Verif.Motion Verif.Dynamics Verif.Relax Verif.Gsd Verif.Process Verif.Cache Verif.StepSize

open scoped List

variable {ν : Type}

/-! ## C96 -/

open Classical in
/-- **C96, exponential series.**  The frames that `process_file` uses for keyframe `k` are exactly the
readable frames with molecules from the first step of the keyframe on that are on its own series of
steps, provided that frames and steps do not both have to be skipped (C12).  A keyframe that the step
iterator never starts has no frames. -/
theorem C96_exponential_frames (a : Args) (vars : Except PyErr ν) (raws : List (Raw PData))
    (m interval kmax linear : Int) (hc : OnlyCorrupt raws) (hinc : Increasing (readable raws))
    (hm0 : 0 ≤ m) (hi : 1 ≤ interval) (hl : 1 ≤ linear)
    (h : (∀ f ∈ readable raws, f.timestep ≤ m →
            f.timestep ∈ (seriesList m linear interval kmax).map Prod.fst) ∨
         (∀ s ∈ (seriesList m linear interval kmax).map Prod.fst,
            (∃ f ∈ readable raws, s ≤ f.timestep) → ∃ f ∈ readable raws, f.timestep = s)) (k : ℕ) :
    framesOf k (visitsOf (env a vars) (readGsd raws (some m) (some linear) interval kmax).1) =
      (readable raws).filter (fun f => decide (f.data.position ≠ [] ∧
        ∃ st, firstStep (seriesList m linear interval kmax) k = some st ∧ st ≤ f.timestep ∧
          Wants m linear st f.timestep)) := by
  obtain ⟨e1, -⟩ := C12_exponential_complete_partial raws m interval kmax linear hc hinc hm0 hi hl h
  obtain ⟨-, -, e2⟩ := C11_exponential_sound raws (some m) interval kmax linear m rfl hm0 hi hl
  rw [framesOf_filter (env a vars) k _ (fun p hp => (e2 p hp).2.2.1)
    (fun f => ∃ st, firstStep (seriesList m linear interval kmax) k = some st ∧ st ≤ f.timestep ∧
      Wants m linear st f.timestep) (fun p hp => (e2 p hp).2.2.2 k), e1, List.filter_filter]
  apply List.filter_congr
  intro f _
  have hn : (env a vars).numPos f ≠ 0 ↔ f.data.position ≠ [] := not_congr List.length_eq_zero_iff
  rw [decide_eq_decide.2 (and_congr hn Iff.rfl)]
  by_cases hP : f.data.position ≠ [] ∧
      ∃ st, firstStep (seriesList m linear interval kmax) k = some st ∧ st ≤ f.timestep ∧
        Wants m linear st f.timestep
  · obtain ⟨-, st, g1, -, g3⟩ := hP
    have := (C06_series_is_union m linear interval kmax hm0 hl hi f.timestep).2 ⟨k, st, g1, g3⟩
    rw [decide_eq_true this, Bool.and_true]
  · rw [decide_eq_false hP, Bool.false_and]

/-- A file with a corrupt frame in the middle. -/
def cFile (d : PData) : List (Raw PData) :=
  [.ok ⟨0, d⟩, .ok ⟨1, d⟩, .ok ⟨2, d⟩, .error .runtimeError, .ok ⟨4, d⟩, .ok ⟨5, d⟩]

/-- The hypotheses of `C96_exponential_frames` for steps 0, 1, 2, 4, 5 with keyframes every 2 steps:
keyframe 1 has the steps 2, 4, 5. -/
example (d : PData) : OnlyCorrupt (cFile d) ∧ Increasing (readable (cFile d)) ∧
    (∀ f ∈ readable (cFile d), f.timestep ≤ 5 → f.timestep ∈ (seriesList 5 10 2 3).map Prod.fst) ∧
    firstStep (seriesList 5 10 2 3) 1 = some 2 := by
  refine ⟨?_, ?_, ?_, by decide⟩
  · intro r hr e he
    subst he
    simpa [cFile] using hr
  · simp [cFile, readable, Increasing]
  · have : ∀ x ∈ ([0, 1, 2, 4, 5] : List Int), x ∈ (seriesList 5 10 2 3).map Prod.fst := by decide
    intro f hf _
    apply this
    simp only [cFile, readable, List.filterMap_cons, List.filterMap_nil, List.mem_cons, List.not_mem_nil,
      or_false] at hf
    rcases hf with rfl | rfl | rfl | rfl | rfl <;> simp

open Classical in
/-- **C96, linear.**  Without `linear_steps` the frames used for keyframe `k` are all readable frames with
molecules from the `k`-th frame at a multiple of the interval on, up to the last step asked for. -/
theorem C96_linear_frames (a : Args) (vars : Except PyErr ν) (raws : List (Raw PData))
    (stepsMax : Option Int) (interval kmax : Int) (hc : OnlyCorrupt raws) (hi : 1 ≤ interval)
    (k : ℕ) (hk : (k : Int) ≤ kmax) (pre post : List (GFrame PData)) (f : GFrame PData)
    (hL : (readable raws).takeWhile (fun f => !stepsMax.any (fun m => decide (m < f.timestep))) =
      pre ++ f :: post)
    (hf : interval ∣ f.timestep)
    (hpre : (pre.filter (fun g => decide (interval ∣ g.timestep))).length = k) :
    framesOf k (visitsOf (env a vars) (readGsd raws stepsMax none interval kmax).1) =
      (f :: post).filter (fun g => decide (g.data.position ≠ [])) := by
  obtain ⟨e1, e2⟩ := C13_linear_reader raws stepsMax interval kmax hc hi (by omega)
  set out := (readGsd raws stepsMax none interval kmax).1 with hout
  rw [hL] at e1
  have hlen : out.length = pre.length + (post.length + 1) := by
    have := congrArg List.length e1
    simpa using this
  -- frames read so far
  have htake : ∀ j < out.length, (readable raws).take (j + 1) = (pre ++ f :: post).take (j + 1) := by
    intro j hj
    have hp : pre ++ f :: post <+: readable raws := by
      rw [← hL]; exact List.takeWhile_prefix _
    obtain ⟨r, hr⟩ := hp
    rw [← hr, List.take_append_of_le_length (by simp; omega)]
  have hidx : ∀ j (hj : j < out.length), out[j].1.Nodup ∧ (k ∈ out[j].1 ↔ pre.length ≤ j) := by
    intro j hj
    obtain ⟨c, h1, h2⟩ := e2 j out[j].1 out[j].2 (List.getElem?_eq_getElem hj)
    rw [htake j hj] at h2
    refine ⟨by rw [h1]; exact List.nodup_range, ?_⟩
    rw [h1, List.mem_range]
    rcases Nat.lt_or_ge j pre.length with hlt | hge
    · have h3 : (((pre ++ f :: post).take (j + 1)).filter
          (fun g => decide (interval ∣ g.timestep))).length ≤ k := by
        rw [← hpre, List.take_append_of_le_length (by omega)]
        exact ((List.take_sublist _ _).filter _).length_le
      omega
    · have h3 : k + 1 ≤ (((pre ++ f :: post).take (j + 1)).filter
          (fun g => decide (interval ∣ g.timestep))).length := by
        have : pre ++ [f] <+ (pre ++ f :: post).take (j + 1) := by
          rw [show pre ++ f :: post = (pre ++ [f]) ++ post by simp,
            List.take_append, List.take_of_length_le (by simp; omega)]
          exact List.sublist_append_left _ _
        have := (this.filter (fun g => decide (interval ∣ g.timestep))).length_le
        rw [List.filter_append, List.length_append, hpre] at this
        simpa [hf] using this
      omega
  have hnd : ∀ p ∈ out, p.1.Nodup := by
    intro p hp
    obtain ⟨j, hj, rfl⟩ := List.getElem_of_mem hp
    exact (hidx j hj).1
  have hsplit : out = out.take pre.length ++ out.drop pre.length := (List.take_append_drop _ _).symm
  rw [hsplit]
  have hv : ∀ x y : List (List ℕ × GFrame PData), visitsOf (env a vars) (x ++ y) =
      visitsOf (env a vars) x ++ visitsOf (env a vars) y := by
    intro x y; simp [visitsOf]
  rw [hv, framesOf_append]
  have h1 : framesOf k (visitsOf (env a vars) (out.take pre.length)) = [] := by
    rw [framesOf_filter (env a vars) k _ (fun p hp => hnd p (List.mem_of_mem_take hp)) (fun _ => False)
      (by
        intro p hp
        obtain ⟨j, hj, rfl⟩ := List.getElem_of_mem hp
        rw [List.getElem_take]
        rw [List.length_take] at hj
        have := (hidx j (by omega)).2
        constructor
        · intro hh; have := this.1 hh; omega
        · exact False.elim)]
    simp
  have h2 : framesOf k (visitsOf (env a vars) (out.drop pre.length)) =
      ((out.drop pre.length).map Prod.snd).filter (fun g => decide (g.data.position ≠ [])) := by
    rw [framesOf_filter (env a vars) k _ (fun p hp => hnd p (List.mem_of_mem_drop hp)) (fun _ => True)
      (by
        intro p hp
        obtain ⟨j, hj, rfl⟩ := List.getElem_of_mem hp
        rw [List.getElem_drop]
        rw [List.length_drop] at hj
        have := (hidx (pre.length + j) (by omega)).2
        constructor
        · intro _; trivial
        · intro _; exact this.2 (by omega))]
    apply List.filter_congr
    intro g _
    have hn : (env a vars).numPos g ≠ 0 ↔ g.data.position ≠ [] := not_congr List.length_eq_zero_iff
    rw [decide_eq_decide]
    simp [hn]
  rw [h1, h2, List.nil_append, List.map_drop, e1, List.drop_left]

/-- The hypotheses of `C96_linear_frames`: keyframe 1 of the same file starts with the third frame. -/
example (d : PData) : (readable (cFile d)).takeWhile (fun f => !(some 4).any (fun m => decide (m < f.timestep))) =
    [⟨0, d⟩, ⟨1, d⟩] ++ ⟨2, d⟩ :: [⟨4, d⟩] ∧
    (([⟨0, d⟩, ⟨1, d⟩] : List (GFrame PData)).filter (fun g => decide ((2 : Int) ∣ g.timestep))).length = 1 := by
  simp [cFile, readable, List.takeWhile]

/-- **C96, the time column.**  When all frames have the same ten or more molecules, and unit quaternions
where there are orientations, the rows stored for a keyframe are one for each of its frames, and each gives the
time since the first of them. -/
theorem C96_times {N : ℕ} (hN : 10 ≤ N) (a : Args) (vars : Except PyErr ν)
    (hmol : a.mol.positions ≠ []) {κ : ℝ} (hκ : 0 < κ) (hw : a.wave = some κ)
    (hdef : a.relaxations = none) (raws : List (Raw PData)) (stepsMax linear : Option Int)
    (interval kmax : Int) {file file' : File (Rec ℕ (Dict Quantity Val) (Dict String ℤ) ν)}
    {out : Option (List (Rec ℕ (Dict Quantity Val) (Dict String ℤ) ν))}
    (h : processGsd a vars raws stepsMax linear interval kmax true file = (file', .ok out)) (k : ℕ)
    {f : GFrame PData} {fs : List (GFrame PData)}
    (hk : framesOf k (visitsOf (env a vars) (readGsd raws stepsMax linear interval kmax).1) = f :: fs)
    (hsame : ∀ g ∈ f :: fs, g.data.position.length = N ∧ ∀ q, g.data.orientation = some q →
      q.length = N ∧ ∀ x ∈ q, Quaternion.normSq x = 1)
    (hb : ∃ b, createFreudBox f.data.box (decide (a.mol.dimensions = 2)) = .ok b) :
    ((rows file' "dynamics").filterMap (dynOf k)).map (fun row => Dict.get? row .time) =
      (f :: fs).map (fun g => some (.int (g.timestep - f.timestep))) := by
  obtain ⟨b, hb⟩ := hb
  obtain ⟨t, box, s, o, ho, hL⟩ := exists_gframes (f :: fs) (by simp) hsame
  generalize (f :: fs).length - 1 = n at hL
  have h0 : f = gf t box s o 0 := by
    have := congrArg List.head? hL
    simpa [gframes, List.range_succ_eq_map] using this
  have hbox : box 0 = f.data.box := by rw [h0]; rfl
  obtain ⟨row, e1, -, e3⟩ := keyframe_rows (box := box) hN (by rw [hbox]; exact hb) ho
    (by unfold WaveIs; rw [hw]; rfl) hκ hdef hmol h (hk.trans hL)
  rw [e1, hL, h0, List.map_map]
  unfold gframes
  rw [List.map_map]
  apply List.map_congr_left
  intro i _
  obtain ⟨al, isf, distance, ar, ga, ov, st, -, -, -, -, -, -, -, hrow⟩ := quantities_ok (e3 i)
  show Dict.get? (row i) .time = _
  rw [hrow]
  rfl

/-- The hypotheses of `C96_times`: a run on a file of two frames. -/
example : ∃ file', processGsd tA (.ok ()) [.ok (gf tT (fun _ => tC.array) tS tO 0),
      .ok (gf tT (fun _ => tC.array) tS tO 1)] none none 5 0 true [] = (file', .ok none) ∧
    framesOf 0 (visitsOf (env tA (.ok ())) (readGsd [.ok (gf tT (fun _ => tC.array) tS tO 0),
      .ok (gf tT (fun _ => tC.array) tS tO 1)] none none 5 0).1) =
      [gf tT (fun _ => tC.array) tS tO 0, gf tT (fun _ => tC.array) tS tO 1] := by
  have hr : (readGsd [.ok (gf tT (fun _ => tC.array) tS tO 0), .ok (gf tT (fun _ => tC.array) tS tO 1)]
      none none 5 0) = ([([0], gf tT (fun _ => tC.array) tS tO 0),
        ([0], gf tT (fun _ => tC.array) tS tO 1)], none) := by
    simp [readGsd, gsdLinear, iterTrajectory, linearReader, updateIndex, gf, tT]
  have hp : ∀ i, (env tA (.ok ())).numPos (gf tT (fun _ => tC.array) tS tO i) ≠ 0 := by
    intro i; simp [env, gf]
  rw [processGsd, hr]
  obtain ⟨file', h⟩ := C91_returns (ι := ℕ) tA () (by simp [tA, exMol]) (by simp [tA]) (by simp [tA])
    [([0], gf tT (fun _ => tC.array) tS tO 0), ([0], gf tT (fun _ => tC.array) tS tO 1)] [] (by
      intro p hp _
      simp only [List.mem_cons, List.not_mem_nil, or_false] at hp
      rcases hp with rfl | rfl
      · exact t_usable 0
      · exact t_usable 1) ⟨_, List.mem_cons_self, by simp [gf], by simp⟩
  exact ⟨file', h, by simp [visitsOf, framesOf, hp]⟩

/-! ## C97 -/

/-- The property as stated: what is read from a file is read in the same way from a longer file that
starts with it. -/
def ReadsOn : Prop :=
  ∀ (raws more : List (Raw Unit)) (stepsMax linear : Option Int) (interval kmax : Int),
    OnlyCorrupt raws → OnlyCorrupt more → Increasing (readable (raws ++ more)) →
    (∀ l, linear = some l → 1 ≤ l) → 1 ≤ interval →
    (readGsd raws stepsMax linear interval kmax).1 <+:
      (readGsd (raws ++ more) stepsMax linear interval kmax).1

/-- **C97 is false**: without `steps_max` the series of steps ends with the last frame of the file, which is
then yielded whether it is on the series or not.  Here it is left out when the file goes on. -/
theorem C97_reads_on_refuted : ¬ ReadsOn := by
  intro h
  have := h (sample [0, 1, 5]) (sample [10]) none (some 1) 100 1 (onlyCorrupt_sample _)
    (onlyCorrupt_sample _) (by unfold Increasing; decide) (by rintro l ⟨⟩; decide) (by decide)
  revert this
  decide

/-- **C97, the part that holds.**  Missing for the full statement: exponential steps without `steps_max`.
Both readers read a longer file in the same way when `steps_max` is given, and the linear one in any case. -/
theorem C97_reads_on_partial {α : Type} (raws more : List (Raw α)) (stepsMax linear : Option Int)
    (interval kmax : Int) (hc : OnlyCorrupt raws) (h : stepsMax ≠ none ∨ linear = none) :
    (readGsd raws stepsMax linear interval kmax).1 <+:
      (readGsd (raws ++ more) stepsMax linear interval kmax).1 := by
  have e0 := iter_append raws more hc
  have e1 := iterTrajectory_eq raws hc
  cases linear with
  | none =>
    simp only [readGsd, gsdLinear, e1]
    rcases h2 : iterTrajectory (raws ++ more) with ⟨fs, fe⟩
    rw [h2] at e0
    simp only at e0
    simp only [e0]
    exact linear_prefix _ _ _ _ _ _ _
  | some l =>
    cases stepsMax with
    | none => simp at h
    | some m =>
      simp only [readGsd, gsdExponential, stepsToRead, e1]
      rcases h2 : iterTrajectory (raws ++ more) with ⟨fs, fe⟩
      rw [h2] at e0
      simp only at e0
      simp only [e0]
      exact (exp_prefix _ _ _ _).1 _

/-- **C97, rows.**  Processing a file after it has grown gives the same rows for the frames that were
there before, in the same order, followed by the rows for the new frames, when `steps_max` is given or the
steps are linear; and the molecular relaxations of the keyframes that have got no new frames stay. -/
theorem C97_rows_partial (a : Args) (vars : Except PyErr ν) (raws more : List (Raw PData))
    (stepsMax linear : Option Int) (interval kmax : Int) (hc : OnlyCorrupt raws)
    (hs : stepsMax ≠ none ∨ linear = none)
    {file₁ file₁' file₂ file₂' : File (Rec ℕ (Dict Quantity Val) (Dict String ℤ) ν)}
    {out₁ out₂ : Option (List (Rec ℕ (Dict Quantity Val) (Dict String ℤ) ν))}
    (h₁ : processGsd a vars raws stepsMax linear interval kmax true file₁ = (file₁', .ok out₁))
    (h₂ : processGsd a vars (raws ++ more) stepsMax linear interval kmax true file₂ = (file₂', .ok out₂))
    (hne₁ : rows file₁ "dynamics" = []) (hne₂ : rows file₂ "dynamics" = []) :
    (rows file₁' "dynamics").filterMap dynPair <+: (rows file₂' "dynamics").filterMap dynPair ∧
    ∀ k, framesOf k (visitsOf (env a vars) (readGsd raws stepsMax linear interval kmax).1) =
        framesOf k (visitsOf (env a vars) (readGsd (raws ++ more) stepsMax linear interval kmax).1) →
      (rows file₁' "molecular_relaxations").filterMap (molOf k) =
        (rows file₂' "molecular_relaxations").filterMap (molOf k) := by
  obtain ⟨r, hr⟩ := C97_reads_on_partial raws more stepsMax linear interval kmax hc hs
  have e₁ := (C26_rows (env a vars) (readGsd raws stepsMax linear interval kmax).1
    (readGsd raws stepsMax linear interval kmax).2 _ _ _ h₁ (Or.inl hne₁)).1
  have e₂ := (C26_rows (env a vars) (readGsd (raws ++ more) stepsMax linear interval kmax).1
    (readGsd (raws ++ more) stepsMax linear interval kmax).2 _ _ _ h₂ (Or.inl hne₂)).1
  constructor
  · rw [e₁, e₂, ← hr]
    have hv : ∀ x y : List (List ℕ × GFrame PData), visitsOf (env a vars) (x ++ y) =
        visitsOf (env a vars) x ++ visitsOf (env a vars) y := by
      intro x y; simp [visitsOf]
    rw [hv, expected_append]
    exact List.prefix_append _ _
  · intro k hk
    rw [(C25_keyframes_isolated (env a vars) (readGsd raws stepsMax linear interval kmax).1
      (readGsd raws stepsMax linear interval kmax).2 _ _ _ h₁ (Or.inl hne₁) k).2,
      (C25_keyframes_isolated (env a vars) (readGsd (raws ++ more) stepsMax linear interval kmax).1
      (readGsd (raws ++ more) stepsMax linear interval kmax).2 _ _ _ h₂ (Or.inl hne₂) k).2, hk]

/-- The hypotheses of `C97_reads_on_partial`, and files for which the second reading is longer. -/
example : (readGsd (sample [0, 1, 2]) (some 10) (some 2) 5 1).1 <+:
      (readGsd (sample [0, 1, 2, 10]) (some 10) (some 2) 5 1).1 ∧
    (readGsd (sample [0, 1, 2, 10]) (some 10) (some 2) 5 1).1.length = 4 :=
  ⟨C97_reads_on_partial (sample [0, 1, 2]) (sample [10]) (some 10) (some 2) 5 1 (onlyCorrupt_sample _)
    (by decide), by decide⟩

end Verif.Pipeline
