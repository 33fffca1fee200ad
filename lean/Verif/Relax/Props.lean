import Mathlib.Data.Rat.Defs
import Mathlib.Algebra.Order.Ring.Rat
import Mathlib.Algebra.Order.Field.Rat
import Verif.Relax.Lemmas
/-!
# Properties of the molecular relaxations, C41-C46
-/

namespace Verif.Relax

variable {K : Type} [LinearOrder K]

/-! ## C41 -/

/-- **C41.** In whatever order the frames arrive, the first-passage relaxation of a molecule is the
smallest of `2**32-1` and the times at which its distance exceeded the threshold. -/
theorem C41_first_passage (n : Nat) (thr : Option K) (k : Kind)
    (hist : List (Int × List (Option K))) (hlen : ∀ p ∈ hist, p.2.length = n) :
    ∃ r, (First.new n thr k).run hist = .ok r ∧ r.getStatus.length = n ∧
      ∀ m < n, ∃ s, r.getStatus[m]? = some s ∧
        IsLeast {x | x = maxValue ∨ ∃ q ∈ ofMol m hist, Exceeds q.2 thr ∧ x = q.1} s := by
  have h0 : (First.new n thr k).status.length = n := by simp [First.new]
  refine ⟨_, First.run_eq n hist _ h0 hlen, ?_, ?_⟩
  · exact arrRun_length _ n hist _ h0 hlen
  · intro m hm
    refine ⟨_, ?_, first_fold thr (ofMol m hist) maxValue⟩
    simp only [First.getStatus]
    rw [arrRun_get _ n m hm hist _ h0 hlen]
    simp [First.new, hm]

/-- Two molecules, frames out of order and a NaN: 3 and never. -/
example : (((First.new 2 (some (1 : ℚ)) .translation).run
    [(5, [some 2, none]), (3, [some (3/2), some 1]), (4, [some 7, some 0])]).toOption.map
    First.getStatus) = some [3, maxValue] := by decide +kernel

/-! ## C42 -/

/-- **C42.** While no frame has the molecule beyond the cutoff (and the threshold) the last-passage
relaxation is `2**32-1`; afterwards it is the time at which the molecule left the threshold distance
for the excursion which first went beyond the cutoff, whatever follows. -/
theorem C42_last_passage (n : Nat) (thr cut : Option K) (k : Kind)
    (hist : List (Int × List (Option K))) (hlen : ∀ p ∈ hist, p.2.length = n) :
    ∃ r, (Last.new n thr cut k).run hist = .ok r ∧ r.getStatus.length = n ∧
      ∀ m < n, ∃ s, r.getStatus[m]? = some s ∧
        (((∀ i, ¬ FirstIrreversible thr cut (ofMol m hist) i) ∧ s = maxValue) ∨
         ∃ i j, FirstIrreversible thr cut (ofMol m hist) i ∧ LeftAt thr (ofMol m hist) i j ∧
           ((ofMol m hist)[j]?).map Prod.fst = some s) := by
  have h0 : (Last.new n thr cut k).mols.length = n := by simp [Last.new]
  refine ⟨_, Last.run_eq n hist _ h0 hlen, ?_, ?_⟩
  · simp only [Last.getStatus, List.length_map]
    exact arrRun_length _ n hist _ h0 hlen
  · intro m hm
    have hinv := last_fold thr cut (ofMol m hist)
    set st := (ofMol m hist).foldl (fun s q => lastStep thr cut q.1 q.2 s) (0, maxValue) with hst
    refine ⟨if st.1 ≠ 2 then maxValue else st.2, ?_, ?_⟩
    · simp only [Last.getStatus, List.getElem?_map]
      rw [arrRun_get _ n m hm hist _ h0 hlen]
      simp [Last.new, hm, ← hst]
    · rcases hinv with ⟨h1, h2, _⟩ | ⟨h1, h2, _⟩ | ⟨h1, i, j, h2, h3, h4⟩
      · exact Or.inl ⟨h2, by simp [h1]⟩
      · refine Or.inl ⟨?_, by simp [h1]⟩
        rintro i ⟨⟨q, hq, hq2⟩, _⟩
        exact h2 i q hq hq2
      · exact Or.inr ⟨i, j, h2, h3, by simp [h1, h4]⟩

/-- For a cutoff not below the threshold, being beyond both is being beyond the cutoff, as in the
statement of the property. -/
theorem C42_cutoff_above (x thr cut : K) (h : thr ≤ cut) :
    (Exceeds (some x) (some thr) ∧ Exceeds (some x) (some cut)) ↔ cut < x := by
  simp only [Exceeds, Option.some.injEq]
  constructor
  · rintro ⟨_, _, _, rfl, rfl, h2⟩; exact h2
  · intro h2; exact ⟨⟨_, _, rfl, rfl, lt_of_le_of_lt h h2⟩, ⟨_, _, rfl, rfl, h2⟩⟩

/-- The position at which the molecule left is unique, so C42 determines the result. -/
theorem C42_determined (thr cut : Option K) (h : Hist K) (i i' j j' : Nat)
    (hi : FirstIrreversible thr cut h i) (hi' : FirstIrreversible thr cut h i')
    (hj : LeftAt thr h i j) (hj' : LeftAt thr h i' j') : i = i' ∧ j = j' := by
  have hii : i = i' := by
    obtain ⟨⟨q, hq, hq2⟩, h1⟩ := hi
    obtain ⟨⟨q', hq', hq2'⟩, h1'⟩ := hi'
    rcases lt_trichotomy i i' with hlt | heq | hlt
    · exact absurd hq2 (h1' i hlt q hq)
    · exact heq
    · exact absurd hq2' (h1 i' hlt q' hq')
  subst hii
  refine ⟨rfl, ?_⟩
  obtain ⟨a1, ⟨q, a2, a2'⟩, a3, a4⟩ := hj
  obtain ⟨b1, ⟨q', b2, b2'⟩, b3, b4⟩ := hj'
  rcases lt_trichotomy j j' with hlt | heq | hlt
  · obtain ⟨l, r, c1, c2, c3, c4⟩ := b4 j q hlt a2 a2'
    exact absurd c4 (a3 l r c1 (by omega) c3)
  · exact heq
  · obtain ⟨l, r, c1, c2, c3, c4⟩ := a4 j' q' hlt b2 b2'
    exact absurd c4 (b3 l r c1 (by omega) c3)

/-- Out at 1, back at 2, out at 3, beyond the cutoff at 5: the result is 3, and stays so. -/
example : (((Last.new 1 (some (1 : ℚ)) (some 3) .translation).run
    [(1, [some 2]), (2, [some 0]), (3, [some 2]), (4, [some 1]), (5, [some 4]), (6, [some 0]),
     (7, [some 5])]).toOption.map Last.getStatus) = some [3] := by decide +kernel

/-! ## C43 -/

/-- **C43.** The value of a molecule depends only on its own distances: two systems, even of
different sizes, in which the molecules have the same distances give the same value. -/
theorem C43_independent (n n' m m' : Nat) (hm : m < n) (hm' : m' < n') (thr cut : Option K)
    (k : Kind) (hist hist' : List (Int × List (Option K))) (hlen : ∀ p ∈ hist, p.2.length = n)
    (hlen' : ∀ p ∈ hist', p.2.length = n') (h : ofMol m hist = ofMol m' hist') :
    (∃ r r', (First.new n thr k).run hist = .ok r ∧ (First.new n' thr k).run hist' = .ok r' ∧
      (∃ s, r.getStatus[m]? = some s ∧ r'.getStatus[m']? = some s)) ∧
    (∃ r r', (Last.new n thr cut k).run hist = .ok r ∧ (Last.new n' thr cut k).run hist' = .ok r' ∧
      (∃ s, r.getStatus[m]? = some s ∧ r'.getStatus[m']? = some s)) := by
  constructor
  · have h0 : (First.new n thr k).status.length = n := by simp [First.new]
    have h0' : (First.new n' thr k).status.length = n' := by simp [First.new]
    refine ⟨_, _, First.run_eq n hist _ h0 hlen, First.run_eq n' hist' _ h0' hlen', ?_⟩
    refine ⟨(ofMol m hist).foldl (fun s q => firstStep thr q.1 q.2 s) maxValue, ?_, ?_⟩
    · simp only [First.getStatus]
      rw [arrRun_get _ n m hm hist _ h0 hlen]
      simp [First.new, hm]
    · simp only [First.getStatus]
      rw [arrRun_get _ n' m' hm' hist' _ h0' hlen', h]
      simp [First.new, hm']
  · have h0 : (Last.new n thr cut k).mols.length = n := by simp [Last.new]
    have h0' : (Last.new n' thr cut k).mols.length = n' := by simp [Last.new]
    refine ⟨_, _, Last.run_eq n hist _ h0 hlen, Last.run_eq n' hist' _ h0' hlen', ?_⟩
    generalize hst : (ofMol m hist).foldl (fun s q => lastStep thr cut q.1 q.2 s) (0, maxValue) = st
    refine ⟨if st.1 ≠ 2 then maxValue else st.2, ?_, ?_⟩
    · simp only [Last.getStatus, List.getElem?_map]
      rw [arrRun_get _ n m hm hist _ h0 hlen]
      simp [Last.new, hm, hst]
    · rw [h] at hst
      simp only [Last.getStatus, List.getElem?_map]
      rw [arrRun_get _ n' m' hm' hist' _ h0' hlen']
      simp [Last.new, hm', hst]

/-- Molecule 1 of three behaves like molecule 0 of one. -/
example : ofMol 1 [(1, [some (9 : ℚ), some 2, none]), (2, [none, some 0, some 1])] =
    ofMol 0 [(1, [some 2]), (2, [some 0])] := by decide +kernel

/-- **C43.** Distances of another length are refused with RuntimeError, and the relaxations stay as
they were. -/
theorem C43_mismatch (t : Int) (disp rot : List (Option K)) (d : Dict String (MolRelax K))
    (hne : d ≠ []) (n : Nat) (hn : ∀ p ∈ d, p.2.size = n) (h1 : disp.length ≠ n)
    (h2 : rot.length ≠ n) : addLoop t disp rot d = (d, some .runtimeError) := by
  cases d with
  | nil => exact absurd rfl hne
  | cons p d =>
    obtain ⟨name, r⟩ := p
    have hs : r.size = n := hn (name, r) (by simp)
    rw [addLoop, MolRelax.add_mismatch r t _ (by rw [hs]; split <;> assumption)]

example : addLoop 3 [some (1 : ℚ)] [some 1] [("a", .first (First.new 2 (some 1) .rotation))] =
    ([("a", .first (First.new 2 (some 1) .rotation))], some .runtimeError) := by
  rw [C43_mismatch (n := 2)] <;> simp [MolRelax.size, First.new]

/-- **C43.** In the object with all its relaxations, each one sees its own kind of distance and
nothing else: translational ones the displacements, rotational ones the rotations. -/
theorem C43_kind (n : Nat) (frames : List (Int × List (Option K) × List (Option K)))
    (d : Dict String (MolRelax K)) (hn : ∀ p ∈ d, p.2.size = n)
    (hf : ∀ f ∈ frames, f.2.1.length = n ∧ f.2.2.length = n) :
    ∃ d', runAll d frames = (d', none) ∧
      List.Forall₂ (fun p p' => p'.1 = p.1 ∧
        p.2.run (frames.map (fun f => (f.1, if p.2.kind = .rotation then f.2.2 else f.2.1)))
          = .ok p'.2) d d' :=
  runAll_ok n frames d hn hf

/-! ## C44 -/

section field
variable {K : Type} [Field K] [LinearOrder K] [IsStrictOrderedRing K]

/-- **C44.** The default relaxations of an object, for every molecule and every trajectory with
times in increasing order (below `2**32-1`): `tau_F ≤ tau_L ≤ tau_D`, the latter two infinite
together, and `tau_T4 ≤ tau_T3 ≤ tau_T2`. -/
theorem C44_order (n : Nat) (old : Dict String (MolRelax K)) (dist pi : K) (hd : 0 ≤ dist)
    (hp : 0 ≤ pi) (frames : List (Int × List (Option K) × List (Option K)))
    (hf : ∀ f ∈ frames, f.2.1.length = n ∧ f.2.2.length = n)
    (hinc : frames.Pairwise (fun f g => f.1 ≤ g.1)) (hmax : ∀ f ∈ frames, f.1 < maxValue) :
    ∃ d, runAll (setMolRelax n old (defaults dist pi)).1 frames = (d, none) ∧
      ∀ m < n, ∃ D F L T2 T3 T4, cell d "tau_D" m = some D ∧ cell d "tau_F" m = some F ∧
        cell d "tau_L" m = some L ∧ cell d "tau_T2" m = some T2 ∧ cell d "tau_T3" m = some T3 ∧
        cell d "tau_T4" m = some T4 ∧
        F ≤ D ∧ F ≤ L ∧ L ≤ D ∧ (D = maxValue ↔ L = maxValue) ∧ T4 ≤ T3 ∧ T3 ≤ T2 := by
  rw [defaults_dict n old dist pi hd hp]
  obtain ⟨d, h1, h2⟩ := runAll_ok n frames _ (by simp [MolRelax.size, First.new, Last.new] :
      ∀ p ∈ [("tau_D", MolRelax.first (First.new n (some (3 * dist)) .translation)),
        ("tau_F", .first (First.new n (some dist) .translation)),
        ("tau_L", .last (Last.new n (some dist) (some (3 * dist)) .translation)),
        ("tau_T2", .first (First.new n (some (pi / 2)) .rotation)),
        ("tau_T3", .first (First.new n (some (pi / 3)) .rotation)),
        ("tau_T4", .first (First.new n (some (pi / 4)) .rotation))], p.2.size = n) hf
  refine ⟨d, h1, ?_⟩
  intro m hm
  obtain ⟨pD, dD, hD, h2D, rfl⟩ := List.forall₂_cons_left_iff.1 h2
  obtain ⟨pF, dF, hF, h2F, rfl⟩ := List.forall₂_cons_left_iff.1 h2D
  obtain ⟨pL, dL, hL, h2L, rfl⟩ := List.forall₂_cons_left_iff.1 h2F
  obtain ⟨pT2, dT2, hT2, h2T2, rfl⟩ := List.forall₂_cons_left_iff.1 h2L
  obtain ⟨pT3, dT3, hT3, h2T3, rfl⟩ := List.forall₂_cons_left_iff.1 h2T2
  obtain ⟨pT4, dT4, hT4, h2T4, rfl⟩ := List.forall₂_cons_left_iff.1 h2T3
  obtain ⟨nD, rD⟩ := pD; obtain ⟨nF, rF⟩ := pF; obtain ⟨nL, rL⟩ := pL
  obtain ⟨nT2, rT2⟩ := pT2; obtain ⟨nT3, rT3⟩ := pT3; obtain ⟨nT4, rT4⟩ := pT4
  obtain ⟨rfl, hD⟩ := hD; obtain ⟨rfl, hF⟩ := hF; obtain ⟨rfl, hL⟩ := hL
  obtain ⟨rfl, hT2⟩ := hT2; obtain ⟨rfl, hT3⟩ := hT3; obtain ⟨rfl, hT4⟩ := hT4
  have hsel : ∀ k, ∀ p ∈ sel k frames, p.2.length = n := by
    intro k p hp
    obtain ⟨f, hf1, rfl⟩ := List.mem_map.1 hp
    simp only
    split
    · exact (hf f hf1).2
    · exact (hf f hf1).1
  have hfirst : ∀ (thr : Option K) (k : Kind) (r : MolRelax K),
      (MolRelax.first (First.new n thr k)).run (sel k frames) = .ok r →
      ∃ s, r.getStatus[m]? = some s ∧ IsLeast {x | x = maxValue ∨
        ∃ q ∈ ofMol m (sel k frames), Exceeds q.2 thr ∧ x = q.1} s := by
    intro thr k r hr
    obtain ⟨r', h3, _, h4⟩ := C41_first_passage n thr k (sel k frames) (hsel k)
    rw [MolRelax.run_first, h3] at hr
    obtain ⟨s, h5, h6⟩ := h4 m hm
    simp only [Except.map, Except.ok.injEq] at hr
    subst hr
    exact ⟨s, h5, h6⟩
  obtain ⟨D, hD1, hD2⟩ := hfirst _ _ _ hD
  obtain ⟨F, hF1, hF2⟩ := hfirst _ _ _ hF
  obtain ⟨T2, hT21, hT22⟩ := hfirst _ _ _ hT2
  obtain ⟨T3, hT31, hT32⟩ := hfirst _ _ _ hT3
  obtain ⟨T4, hT41, hT42⟩ := hfirst _ _ _ hT4
  obtain ⟨rL', h3, _, h4⟩ := C42_last_passage n (some dist) (some (3 * dist)) .translation
    (sel .translation frames) (hsel _)
  obtain ⟨L, hL1, hL2⟩ := h4 m hm
  simp only [MolRelax.kind, Last.new] at hL
  rw [MolRelax.run_last] at hL
  simp only [Last.new] at h3
  rw [h3] at hL
  simp only [Except.map, Except.ok.injEq] at hL
  subst hL
  have h13 : dist ≤ 3 * dist := by linarith
  have hinc' : (ofMol m (sel .translation frames)).Pairwise (fun p q => p.1 ≤ q.1) := by
    simp only [ofMol, sel, List.map_map, List.pairwise_map]
    exact hinc.imp (fun h => h)
  have hmax' : ∀ q ∈ ofMol m (sel .translation frames), q.1 < maxValue := by
    intro q hq
    simp only [ofMol, sel, List.map_map, List.mem_map] at hq
    obtain ⟨f, hf1, rfl⟩ := hq
    exact hmax f hf1
  obtain ⟨o1, o2, o3⟩ := passage_order _ dist (3 * dist) h13 hinc' hmax' F D L hF2 hD2 hL2
  refine ⟨D, F, L, T2, T3, T4, ?_, ?_, ?_, ?_, ?_, ?_, o1.trans o2, o1, o2, o3, ?_, ?_⟩
  · rw [cell_eq _ _ m rD (by simp [Dict.get?])]; exact hD1
  · rw [cell_eq _ _ m rF (by simp [Dict.get?])]; exact hF1
  · rw [cell_eq _ _ m (.last rL') (by simp [Dict.get?])]; exact hL1
  · rw [cell_eq _ _ m rT2 (by simp [Dict.get?])]; exact hT21
  · rw [cell_eq _ _ m rT3 (by simp [Dict.get?])]; exact hT31
  · rw [cell_eq _ _ m rT4 (by simp [Dict.get?])]; exact hT41
  · exact first_le_of_threshold _ (pi / 4) (pi / 3) (by linarith) _ _ hT42 hT32
  · exact first_le_of_threshold _ (pi / 3) (pi / 2) (by linarith) _ _ hT32 hT22

end field

/-- Frames for which the values are all different: `F = 1`, `L = 3`, `D = 4`. -/
example : (fun r => (summary r.1, r.2)) (runAll (setMolRelax (K := ℚ) 1 [] (defaults 1 3)).1
    [(1, [some 2], [some 0]), (2, [some 0], [some 0]), (3, [some 2], [some 0]),
     (4, [some 5], [some 9])]) =
    ([("tau_D", [4]), ("tau_F", [1]), ("tau_L", [3]), ("tau_T2", [4]), ("tau_T3", [4]),
      ("tau_T4", [4])], none) := by
  decide +kernel

/-! ## C45 -/

section define
variable {K : Type} [Field K] [LinearOrder K] [IsStrictOrderedRing K]

/-- **C45.** `set_mol_relax` succeeds exactly when every definition is valid; the names are then
distinct, those of the definitions, and each stands for the fresh relaxation of the last definition
with that name. -/
theorem C45_set_mol_relax (n : Nat) (old : Dict String (MolRelax K)) (ds : List (Def K)) :
    ((setMolRelax n old ds).2 = none ↔ ∀ d ∈ ds, Valid d) ∧
    ((setMolRelax n old ds).2 = none →
      ((setMolRelax n old ds).1.map Prod.fst).Nodup ∧
      ∀ name r, Dict.get? (setMolRelax n old ds).1 name = some r ↔ LastDef n ds name r) := by
  refine ⟨setLoop_ok_iff n ds [], ?_⟩
  intro h
  have hv := (setLoop_ok_iff n ds []).1 h
  refine ⟨setLoop_nodup n ds [] (by simp), ?_⟩
  intro name r
  have := setLoop_get n ds [] hv name r
  simpa [setMolRelax, Dict.get?] using this

omit [IsStrictOrderedRing K] in
/-- **C45.** Anything invalid raises ValueError or KeyError. -/
theorem C45_errors (n : Nat) (old : Dict String (MolRelax K)) (ds : List (Def K)) (e : PyErr)
    (h : (setMolRelax n old ds).2 = some e) : e = .valueError ∨ e = .keyError :=
  setLoop_err n ds [] e h

/-- Three definitions with two names: the second "a" wins. -/
example : ((setMolRelax (K := ℚ) 1 []
    [⟨some "a", some (some (some 1)), false, none, none⟩,
     ⟨some "b", some (some none), true, some (some (some 2)), some "rotation"⟩,
     ⟨some "a", some (some (some 5)), false, none, some "rotation"⟩]).1.map
       (fun p => (p.1, p.2.kind))) = [("a", .rotation), ("b", .rotation)] := by decide +kernel

/-! ## C46 -/

/-- The property as stated: a rejected call changes nothing. -/
def KeepsOld (K : Type) [Field K] [LinearOrder K] : Prop :=
  ∀ (n : Nat) (old : Dict String (MolRelax K)) (ds : List (Def K)),
    (setMolRelax n old ds).2 ≠ none → (setMolRelax n old ds).1 = old

/-- **C46 is false**: the old relaxations are dropped before the definitions are looked at
(relaxations.py:110).  Here `set_mol_relax([{}])` on an object with one relaxation. -/
theorem C46_rejected_keeps_old_refuted : ¬ KeepsOld ℚ := by
  intro h
  have := h 1 [("tau", .first (First.new 1 (some 1) .translation))] [⟨none, none, false, none, none⟩]
    (by simp [setMolRelax, setLoop, makeRelax])
  simp [setMolRelax, setLoop, makeRelax] at this

/-- **C46, the part that holds.**  Missing for the full statement: the old relaxations are lost.
What is left is the result for the definitions before the first invalid one, so the object is still
consistent (every entry is one that a successful call would have made). -/
theorem C46_rejected_keeps_old_partial (n : Nat) (old : Dict String (MolRelax K)) (ds : List (Def K))
    (h : (setMolRelax n old ds).2 ≠ none) :
    ∃ pre d post, ds = pre ++ d :: post ∧ (∀ d' ∈ pre, Valid d') ∧ ¬ Valid d ∧
      setMolRelax n old pre = ((setMolRelax n old ds).1, none) :=
  setLoop_fail n ds [] h

example : (setMolRelax (K := ℚ) 1 [] [⟨some "a", some (some (some 1)), false, none, none⟩,
    ⟨some "b", some (some (some (-1))), false, none, none⟩]).2 = some .valueError := by decide +kernel

end define

end Verif.Relax
