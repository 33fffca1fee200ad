import Verif.Pipeline.LimitLemmas
/-!
# C154, C155: the limits on steps and keyframes
-/

namespace Verif.Pipeline

open Verif.Motion Verif.Dynamics Verif.Gsd Verif.StepSize Verif.Process Verif.Cache

variable {ν : Type}

/-! ## C154 -/

/-- **C154, exponential steps.**  Whatever the file: for two values `m ≤ m'` of `steps_max`, every keyframe gets the same
frames before step `m`, and with `m` nothing beyond it. -/
theorem C154_exponential {α : Type} (raws : List (Raw α)) (m m' interval kmax linear : Int) (hm : 0 ≤ m) (hmm : m ≤ m')
    (hi : 1 ≤ interval) (hl : 1 ≤ linear) (k : ℕ) :
    (given k (readGsd raws (some m) (some linear) interval kmax).1).filter (fun f => decide (f.timestep < m)) =
      (given k (readGsd raws (some m') (some linear) interval kmax).1).filter (fun f => decide (f.timestep < m)) ∧
    ∀ f ∈ given k (readGsd raws (some m) (some linear) interval kmax).1, f.timestep ≤ m := by
  constructor
  · exact (exp_agree le_rfl hmm (iterTrajectory raws).2 (iterTrajectory raws).2 (iterTrajectory raws).1).1 _ _
      (series_agree hm hmm hl hi k)
  · intro f hf
    obtain ⟨p, hp, rfl⟩ := List.mem_map.1 hf
    exact ((C11_exponential_sound raws (some m) interval kmax linear m rfl hm hi hl).2.2 p
      (List.mem_of_mem_filter hp)).2.1

/-- Frames 15 and 18 with 10 linear steps: the frame at step 15 is given for `steps_max` 15 only, the one before it for
both. -/
example :
    (given 0 (readGsd (sample [0, 3, 15, 18, 30]) (some 15) (some 10) 100 1).1).map (·.timestep) = [0, 3, 15] ∧
    (given 0 (readGsd (sample [0, 3, 15, 18, 30]) (some 30) (some 10) 100 1).1).map (·.timestep) = [0, 3, 30] := by
  decide

/-- **C154, linear steps.**  A smaller `steps_max` gives the beginning of what a larger one or none gives, up to and with
that step. -/
theorem C154_linear {α : Type} (raws : List (Raw α)) (m interval kmax : Int) (stepsMax : Option Int)
    (hs : ∀ m', stepsMax = some m' → m ≤ m') :
    (readGsd raws (some m) none interval kmax).1 =
      (readGsd raws stepsMax none interval kmax).1.takeWhile (fun p => decide (p.2.timestep ≤ m)) :=
  linear_limit m interval kmax stepsMax hs _ _ _

example : (readGsd (sample [0, 3, 15, 18, 30]) (some 15) none 5 3).1.map (fun p => (p.1, p.2.timestep)) =
      [([0], 0), ([0], 3), ([0, 1], 15)] ∧
    (readGsd (sample [0, 3, 15, 18, 30]) none none 5 3).1.map (fun p => (p.1, p.2.timestep)) =
      [([0], 0), ([0], 3), ([0, 1], 15), ([0, 1], 18), ([0, 1, 2], 30)] := by
  decide

/-- **C154, tables, exponential steps.**  The rows of dynamics of each keyframe are the same, except that the larger
`steps_max` may have more of them and the smaller one a single last one of its own. -/
theorem C154_exponential_tables (a : Args) (vars : Except PyErr ν) (raws : List (Raw PData))
    (m m' interval kmax linear : Int) (hinc : Increasing (readable raws)) (hm : 0 ≤ m) (hmm : m ≤ m')
    (hi : 1 ≤ interval) (hl : 1 ≤ linear) (k : ℕ)
    {file file' : File (Rec ℕ (Dict Quantity Val) (Dict String ℤ) ν)}
    {o o' : Option (List (Rec ℕ (Dict Quantity Val) (Dict String ℤ) ν))}
    (h1 : processGsd a vars raws (some m) (some linear) interval kmax true [] = (file, .ok o))
    (h2 : processGsd a vars raws (some m') (some linear) interval kmax true [] = (file', .ok o')) :
    ∃ common last more, (rows file "dynamics").filterMap (dynOf k) = common ++ last ∧ last.length ≤ 1 ∧
      (rows file' "dynamics").filterMap (dynOf k) = common ++ more := by
  obtain ⟨e1, e2⟩ := C154_exponential raws m m' interval kmax linear hm hmm hi hl k
  obtain ⟨s1, -, n1⟩ := C11_exponential_sound raws (some m) interval kmax linear m rfl hm hi hl
  obtain ⟨s2, -, n2⟩ := C11_exponential_sound raws (some m') interval kmax linear m' rfl (by omega) hi hl
  unfold processGsd at h1 h2
  generalize readGsd raws (some m) (some linear) interval kmax = p1 at *
  generalize readGsd raws (some m') (some linear) interval kmax = p2 at *
  obtain ⟨d1, -⟩ := C25_keyframes_isolated (env a vars) p1.1 p1.2 _ _ _ h1 (Or.inl rfl) k
  obtain ⟨d2, -⟩ := C25_keyframes_isolated (env a vars) p2.1 p2.2 _ _ _ h2 (Or.inl rfl) k
  rw [d1, d2, framesOf_given _ k _ (fun p hp => (n1 p hp).2.2.1), framesOf_given _ k _ (fun p hp => (n2 p hp).2.2.1)]
  have hsub : ∀ p : List (List ℕ × GFrame PData), (p.map Prod.snd).Sublist (readable raws) →
      Increasing (given k p) := by
    intro p hp
    unfold Increasing at hinc ⊢
    exact hinc.sublist ((List.Sublist.map Prod.snd List.filter_sublist).trans hp)
  have split1 := filter_split (hsub _ s1) m
  have split2 := filter_split (hsub _ s2) m
  rw [← e1] at split2
  rw [split1, split2]
  simp only [List.filter_append]
  generalize ((given k p1.1).filter (fun f => decide (f.timestep < m))).filter _ = A
  obtain ⟨x, hx, hlen⟩ := soloRows_append (env a vars) A
    (((given k p1.1).filter (fun f => decide (m ≤ f.timestep))).filter (fun f => decide ((env a vars).numPos f ≠ 0)))
  obtain ⟨y, hy, -⟩ := soloRows_append (env a vars) A
    (((given k p2.1).filter (fun f => decide (m ≤ f.timestep))).filter (fun f => decide ((env a vars).numPos f ≠ 0)))
  refine ⟨_, x, y, hx, le_trans hlen (le_trans (List.length_filter_le _ _) ?_), hy⟩
  -- at most one frame is at step `m`
  have hinc1 := hsub _ s1
  unfold Increasing at hinc1
  have hp : ((given k p1.1).filter (fun f => decide (m ≤ f.timestep))).Pairwise
      (fun f g => f.timestep < g.timestep) := hinc1.filter _
  have hall : ∀ f ∈ (given k p1.1).filter (fun f => decide (m ≤ f.timestep)), f.timestep = m := by
    intro f hf
    rw [List.mem_filter] at hf
    have := e2 f hf.1
    have := of_decide_eq_true hf.2
    omega
  generalize (given k p1.1).filter (fun f => decide (m ≤ f.timestep)) = l at hp hall
  match l with
  | [] => simp
  | [_] => simp
  | f :: g :: l =>
    rw [List.pairwise_cons] at hp
    have := hp.1 g (by simp)
    have := hall f (by simp)
    have := hall g (by simp)
    omega

/-- **C154, tables, linear steps.**  The rows of dynamics with the smaller `steps_max` are the beginning of the others. -/
theorem C154_linear_tables (a : Args) (vars : Except PyErr ν) (raws : List (Raw PData)) (m interval kmax : Int)
    (stepsMax : Option Int) (hs : ∀ m', stepsMax = some m' → m ≤ m')
    {file file' : File (Rec ℕ (Dict Quantity Val) (Dict String ℤ) ν)}
    {o o' : Option (List (Rec ℕ (Dict Quantity Val) (Dict String ℤ) ν))}
    (h1 : processGsd a vars raws (some m) none interval kmax true [] = (file, .ok o))
    (h2 : processGsd a vars raws stepsMax none interval kmax true [] = (file', .ok o')) :
    (rows file "dynamics").filterMap dynPair <+: (rows file' "dynamics").filterMap dynPair := by
  have e := C154_linear raws m interval kmax stepsMax hs
  unfold processGsd at h1 h2
  generalize readGsd raws (some m) none interval kmax = p1 at *
  generalize readGsd raws stepsMax none interval kmax = p2 at *
  rw [(C26_rows (env a vars) p1.1 p1.2 _ _ _ h1 (Or.inl rfl)).1, (C26_rows (env a vars) p2.1 p2.2 _ _ _ h2 (Or.inl rfl)).1]
  obtain ⟨r, hr⟩ := List.takeWhile_prefix (fun p : List ℕ × GFrame PData => decide (p.2.timestep ≤ m)) (l := p2.1)
  rw [← e] at hr
  rw [← hr]
  have hv : visitsOf (env a vars) (p1.1 ++ r) = visitsOf (env a vars) p1.1 ++ visitsOf (env a vars) r := by
    simp [visitsOf]
  rw [hv, expected_append]
  exact List.prefix_append _ _

/-- Such runs: steps 0, 1, 2, 4, 5, read up to step 4 and to the end. -/
example (d : PData) : Increasing (readable (cFile d)) ∧ (0 : Int) ≤ 4 ∧ (4 : Int) ≤ 5 ∧
    ∀ m', (none : Option Int) = some m' → (4 : Int) ≤ m' := by
  refine ⟨?_, by decide, by decide, by simp⟩
  simp [cFile, readable, Increasing]

/-! ## C155 -/

/-- The full statement: with a larger `keyframe_max`, the keyframes that were there before get the same frames. -/
def KmaxSame (linear : Option Int) : Prop :=
  ∀ (raws : List (Raw Unit)) (m interval M M' : Int), OnlyCorrupt raws → Increasing (readable raws) →
    0 ≤ m → 1 ≤ interval → M ≤ M' → ∀ k : ℕ, (k : Int) < max 1 M →
    given k (readGsd raws (some m) linear interval M).1 = given k (readGsd raws (some m) linear interval M').1

/-- **C155, linear steps.**  With linear steps a larger `keyframe_max` only adds keyframes: those up to the smaller one
get the same frames. -/
theorem C155_linear {α : Type} (raws : List (Raw α)) (stepsMax : Option Int) (interval M M' : Int) (hM : M ≤ M') (k : ℕ)
    (hk : (k : Int) ≤ M) :
    given k (readGsd raws stepsMax none interval M).1 = given k (readGsd raws stepsMax none interval M').1 :=
  linear_kmax stepsMax interval M M' hM _ k hk _ 0 0 (by omega)

example : (readGsd (sample [0, 5, 10, 15]) none none 5 1).1.map Prod.fst = [[0], [0, 1], [0, 1], [0, 1]] ∧
    (readGsd (sample [0, 5, 10, 15]) none none 5 9).1.map Prod.fst = [[0], [0, 1], [0, 1, 2], [0, 1, 2, 3]] := by
  decide

/-- **C155, tables, linear steps.**  Such a keyframe has the same rows of dynamics and the same molecular relaxations. -/
theorem C155_linear_tables (a : Args) (vars : Except PyErr ν) (raws : List (Raw PData)) (stepsMax : Option Int)
    (interval M M' : Int) (hM : M ≤ M') (k : ℕ) (hk : (k : Int) ≤ M)
    {file file' : File (Rec ℕ (Dict Quantity Val) (Dict String ℤ) ν)}
    {o o' : Option (List (Rec ℕ (Dict Quantity Val) (Dict String ℤ) ν))}
    (h1 : processGsd a vars raws stepsMax none interval M true [] = (file, .ok o))
    (h2 : processGsd a vars raws stepsMax none interval M' true [] = (file', .ok o')) :
    (rows file "dynamics").filterMap (dynOf k) = (rows file' "dynamics").filterMap (dynOf k) ∧
    (rows file "molecular_relaxations").filterMap (molOf k) =
      (rows file' "molecular_relaxations").filterMap (molOf k) := by
  have e := C155_linear raws stepsMax interval M M' hM k hk
  have n1 : ∀ p ∈ (readGsd raws stepsMax none interval M).1, p.1.Nodup :=
    linear_ranges stepsMax interval M _ _ 0
  have n2 : ∀ p ∈ (readGsd raws stepsMax none interval M').1, p.1.Nodup :=
    linear_ranges stepsMax interval M' _ _ 0
  unfold processGsd at h1 h2
  generalize readGsd raws stepsMax none interval M = p1 at *
  generalize readGsd raws stepsMax none interval M' = p2 at *
  obtain ⟨d1, r1⟩ := C25_keyframes_isolated (env a vars) p1.1 p1.2 _ _ _ h1 (Or.inl rfl) k
  obtain ⟨d2, r2⟩ := C25_keyframes_isolated (env a vars) p2.1 p2.2 _ _ _ h2 (Or.inl rfl) k
  rw [d1, d2, r1, r2, framesOf_given _ k _ n1, framesOf_given _ k _ n2, e]
  exact ⟨rfl, rfl⟩

/-- **C155, exponential steps, refuted.**  Frames 0, 5, 15, 20 with 10 linear steps and keyframes every 5 steps: the
frame at step 20 is given to keyframe 0 for `keyframe_max` 2, and for `keyframe_max` 1 it is lost. -/
theorem C155_exponential_refuted : ¬ KmaxSame (some 10) := by
  intro h
  have := h (sample [0, 5, 15, 20]) 40 5 1 2 (onlyCorrupt_sample _) (by unfold Increasing; decide) (by decide)
    (by decide) (by decide) 0 (by decide)
  revert this
  decide

/-- **C155, exponential steps, proved part.**  The full statement is `KmaxSame (some linear)`.  It holds when every frame
is on the series for the smaller `keyframe_max`, or no step of the series for the larger one is missing from the file.
Missing: files with steps that are missing and frames in between. -/
theorem C155_exponential_partial {α : Type} (raws : List (Raw α)) (m interval M M' linear : Int) (hc : OnlyCorrupt raws)
    (hinc : Increasing (readable raws)) (hm : 0 ≤ m) (hi : 1 ≤ interval) (hl : 1 ≤ linear) (hM : M ≤ M')
    (h : NoneOff raws m linear interval M ∨ NoneMissing raws m linear interval M') (k : ℕ) (hk : (k : Int) < max 1 M) :
    given k (readGsd raws (some m) (some linear) interval M).1 =
      given k (readGsd raws (some m) (some linear) interval M').1 := by
  have h1 : NoneOff raws m linear interval M ∨ NoneMissing raws m linear interval M :=
    h.imp_right (fun h s hs he => h s (series_kmax hm hl hi hM hs) he)
  have h2 : NoneOff raws m linear interval M' ∨ NoneMissing raws m linear interval M' :=
    h.imp_left (fun h f hf hfm => series_kmax hm hl hi hM (h f hf hfm))
  rw [given_exponential raws m interval M linear hc hinc hm hi hl h1 k,
    given_exponential raws m interval M' linear hc hinc hm hi hl h2 k, first_kmax hm hl hi hM hk]

/-- Frames 0 to 7 with 10 linear steps and keyframes every 5 steps: nothing is off the series, and keyframe 1 is
added. -/
example : NoneOff (sample [0, 1, 2, 3, 4, 5, 6, 7]) 7 10 5 1 ∧
    (readGsd (sample [0, 1, 2, 3, 4, 5, 6, 7]) (some 7) (some 10) 5 1).1.map Prod.fst =
      [[0], [0], [0], [0], [0], [0], [0], [0]] ∧
    (readGsd (sample [0, 1, 2, 3, 4, 5, 6, 7]) (some 7) (some 10) 5 2).1.map Prod.fst =
      [[0], [0], [0], [0], [0], [0, 1], [0, 1], [0, 1]] := by
  refine ⟨?_, by decide, by decide⟩
  unfold NoneOff
  decide

/-- **C155, tables, proved part.**  Whenever a keyframe gets the same frames for both, it has the same rows of dynamics
and the same molecular relaxations. -/
theorem C155_tables_partial (a : Args) (vars : Except PyErr ν) (raws : List (Raw PData)) (m interval M M' linear : Int)
    (hc : OnlyCorrupt raws) (hinc : Increasing (readable raws)) (hm : 0 ≤ m) (hi : 1 ≤ interval) (hl : 1 ≤ linear)
    (hM : M ≤ M') (h : NoneOff raws m linear interval M ∨ NoneMissing raws m linear interval M') (k : ℕ)
    (hk : (k : Int) < max 1 M) {file file' : File (Rec ℕ (Dict Quantity Val) (Dict String ℤ) ν)}
    {o o' : Option (List (Rec ℕ (Dict Quantity Val) (Dict String ℤ) ν))}
    (h1 : processGsd a vars raws (some m) (some linear) interval M true [] = (file, .ok o))
    (h2 : processGsd a vars raws (some m) (some linear) interval M' true [] = (file', .ok o')) :
    (rows file "dynamics").filterMap (dynOf k) = (rows file' "dynamics").filterMap (dynOf k) ∧
    (rows file "molecular_relaxations").filterMap (molOf k) =
      (rows file' "molecular_relaxations").filterMap (molOf k) := by
  have e := C155_exponential_partial raws m interval M M' linear hc hinc hm hi hl hM h k hk
  have n1 := (C11_exponential_sound raws (some m) interval M linear m rfl hm hi hl).2.2
  have n2 := (C11_exponential_sound raws (some m) interval M' linear m rfl hm hi hl).2.2
  unfold processGsd at h1 h2
  generalize readGsd raws (some m) (some linear) interval M = p1 at *
  generalize readGsd raws (some m) (some linear) interval M' = p2 at *
  obtain ⟨d1, r1⟩ := C25_keyframes_isolated (env a vars) p1.1 p1.2 _ _ _ h1 (Or.inl rfl) k
  obtain ⟨d2, r2⟩ := C25_keyframes_isolated (env a vars) p2.1 p2.2 _ _ _ h2 (Or.inl rfl) k
  rw [d1, d2, r1, r2, framesOf_given _ k _ (fun p hp => (n1 p hp).2.2.1),
    framesOf_given _ k _ (fun p hp => (n2 p hp).2.2.1), e]
  exact ⟨rfl, rfl⟩

end Verif.Pipeline
