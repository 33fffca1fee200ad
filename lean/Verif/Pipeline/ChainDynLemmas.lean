import Verif.Pipeline.ChainLemmas
/-!
# The table of dynamics, as `compute_relaxations` reads it
-/

namespace Verif.Pipeline

open Verif.Motion Verif.Dynamics Verif.Relax Verif.Gsd Verif.Process Verif.Cache Verif.Tables

/-- All rows are dynamics at temperature `T` and pressure `P`. -/
def AllDyn (rs : List FRec) (T P : ℝ) : Prop := ∀ r ∈ rs, ∃ k d, r = .dyn k d (some T, some P)

theorem quantityName_inj {p q : Quantity} (h : quantityName p = quantityName q) : p = q := by
  cases p <;> cases q <;> first | rfl | (exfalso; revert h; decide)

theorem quantityName_not (q : Quantity) : quantityName q ∉ ["keyframe", "temperature", "pressure"] := by
  cases q <;> decide

theorem find_quantity (d : Dict Quantity Val) (q : Quantity) :
    (d.find? (fun p => decide (quantityName p.1 = quantityName q))).bind (fun p => number p.2) =
      (Dict.get? d q).bind number := by
  induction d with
  | nil => rfl
  | cons p d ih =>
    obtain ⟨k, v⟩ := p
    by_cases hk : k = q
    · subst hk; simp [Dict.get?]
    · have : quantityName k ≠ quantityName q := fun h => hk (quantityName_inj h)
      simp only [Dict.get?, if_neg hk, ← ih]
      rw [List.find?_cons_of_neg (by simpa using this)]

theorem of_dyn {r : Row} {k : ℕ} {d : Dict Quantity Val} {T P : ℝ} {k' : ℕ}
    (h : r.val = recVal (.dyn k d (some T, some P))) : r.Of k' T P ↔ k = k' := by
  unfold Row.Of
  rw [h]
  simp [recVal]

open Classical in
/-- The rows of one keyframe: what they hold, and where they are. -/
theorem filter_dyn (T P : ℝ) (k : ℕ) (q : Quantity) : ∀ (rs : List FRec) (R : List Row),
    AllDyn rs T P → R.map Row.val = rs.map recVal →
    (R.filter (fun r => decide (r.Of k T P))).map (fun r => r.val (quantityName q)) =
      (rs.filterMap (dynOf k)).map (fun d => (Dict.get? d q).bind number) ∧
    ∀ i y, (R.filter (fun r => decide (r.Of k T P)))[i]? = some y → ∃ j : ℕ, R[j]? = some y ∧
      (∃ d, rs[j]? = some (.dyn k d (some T, some P))) ∧
      ((rs.take j).filterMap (dynOf k)).length = i
  | [], R, _, h => by
    have : R = [] := by simpa using h
    subst this; simp
  | x :: rs, [], _, h => by simp at h
  | x :: rs, r :: R, hall, h => by
    simp only [List.map_cons, List.cons.injEq] at h
    obtain ⟨ih1, ih2⟩ := filter_dyn T P k q rs R (fun y hy => hall y (by simp [hy])) h.2
    obtain ⟨k', d, rfl⟩ := hall x (by simp)
    have hof := of_dyn (k' := k) h.1
    by_cases hk : k' = k
    · rw [List.filter_cons_of_pos (by simpa using hof.2 hk)]
      have hv : r.val (quantityName q) = (Dict.get? d q).bind number := by
        have hn := quantityName_not q
        simp only [List.mem_cons, List.not_mem_nil, or_false, not_or] at hn
        rw [h.1]; simp only [recVal, if_neg hn.1, if_neg hn.2.1, if_neg hn.2.2]
        exact find_quantity d q
      have hm : dynOf k (Rec.dyn k' d (some T, some P) : FRec) = some d := by simp [dynOf, hk]
      rw [List.filterMap_cons_some hm]
      refine ⟨by simp only [List.map_cons, hv, ih1], ?_⟩
      intro i y hy
      cases i with
      | zero => exact ⟨0, by simpa using hy, ⟨d, by simp [hk]⟩, by simp⟩
      | succ i =>
        obtain ⟨j, h1, h2, h3⟩ := ih2 i y (by simpa using hy)
        exact ⟨j + 1, by simpa using h1, by simpa using h2, by
          rw [List.take_succ_cons, List.filterMap_cons_some hm, List.length_cons, h3]⟩
    · rw [List.filter_cons_of_neg (by simpa using fun h => hk (hof.1 h))]
      have hm : dynOf k (Rec.dyn k' d (some T, some P) : FRec) = none := by simp [dynOf, hk]
      rw [List.filterMap_cons_none hm]
      refine ⟨ih1, ?_⟩
      intro i y hy
      obtain ⟨j, h1, h2, h3⟩ := ih2 i y hy
      exact ⟨j + 1, by simpa using h1, by simpa using h2, by
        rw [List.take_succ_cons, List.filterMap_cons_none hm, h3]⟩

/-- The rows that the trackers of a keyframe give. -/
theorem course_solo {N : ℕ} (hN : 10 ≤ N) {a : Args} (hmol : a.mol.positions ≠ []) (hdef : a.relaxations = none)
    {ν : Type} {vars : Except PyErr ν} {pairs : List (List ℕ × GFrame PData)} {k : ℕ} {C : Course N}
    (hC : C.Of a (framesOf k (visitsOf (env a vars) pairs))) :
    (soloRows (env a vars) (framesOf k (visitsOf (env a vars) pairs))).length = C.n + 1 := by
  have hb : createFreudBox (C.box 0) (is2d (some a.mol)) = .ok C.c.box := by
    rw [hC.box, show is2d (some a.mol) = C.c.is2D from hC.dim]
    exact createFreudBox_cell C.c
  have hw0 : a.wave ≠ some 0 := by
    intro h0
    have hw := hC.wave
    rw [h0] at hw
    simp only [waveOf, Except.ok.injEq] at hw
    exact hC.pos.ne hw
  choose row hrow using rows_exist (a := a) hN C.c.box (C.t 0) (fun i => C.t (i - 1)) (held C.s) (held C.o)
    hw0 hmol
  have hsolo := solo_traj (vars := vars) (box := C.box) (by omega) hb hC.follows.unit hC.wave hC.pos hdef C.n
    (fun i => row (i + 1)) (fun i _ => hrow (i + 1))
  rw [hC.frames, soloRows, hsolo]
  simp

theorem expected_sublist {Φ D R ρ σ ν : Type} (E : Env Φ D R ρ σ ν) : ∀ (vs past : List (ℕ × Φ)),
    ((expected E past vs).map Prod.fst).Sublist (vs.map Prod.fst)
  | [], _ => by simp [expected]
  | (k, f) :: vs, past => by
    have ih := expected_sublist E vs (past ++ [(k, f)])
    simp only [expected, List.map_append, List.map_cons]
    cases outcome E (framesOf k past) f with
    | none => simpa using ih.cons k
    | some r => simpa using ih

theorem count_framesOf {Φ : Type} (k : ℕ) : ∀ vs : List (ℕ × Φ),
    (vs.map Prod.fst).count k = (framesOf k vs).length
  | [] => rfl
  | (k', f) :: vs => by
    have ih := count_framesOf k vs
    unfold framesOf at ih ⊢
    by_cases hk : k' = k
    · subst hk; simp [ih]
    · simp [hk, ih]

theorem count_dynOf {T P : ℝ} (k : ℕ) : ∀ R : List FRec, AllDyn R T P →
    ((R.filterMap dynPair).map Prod.fst).count k = (R.filterMap (dynOf k)).length
  | [], _ => rfl
  | x :: R, h => by
    have ih := count_dynOf k R (fun y hy => h y (by simp [hy]))
    obtain ⟨k', d, rfl⟩ := h x (by simp)
    by_cases hk : k' = k
    · subst hk; simp [dynPair, dynOf, ih]
    · simp [dynPair, dynOf, hk, ih]

theorem position {Φ : Type} {T P : ℝ} (k : ℕ) : ∀ (R : List FRec) (vs : List (ℕ × Φ)), AllDyn R T P →
    (R.filterMap dynPair).map Prod.fst = vs.map Prod.fst → ∀ j,
      ((R.take j).filterMap (dynOf k)).length = (framesOf k (vs.take j)).length ∧
      ∀ d v, R[j]? = some (.dyn k d v) → ∃ f, vs[j]? = some (k, f)
  | [], vs, _, h => by
    have : vs = [] := by simpa using h.symm
    subst this; simp [framesOf]
  | x :: R, [], hall, h => by
    obtain ⟨k', d, rfl⟩ := hall x (by simp)
    simp [dynPair] at h
  | x :: R, (k1, f) :: vs, hall, h => by
    obtain ⟨k', d, rfl⟩ := hall x (by simp)
    rw [List.filterMap_cons_some (show dynPair (.dyn k' d (some T, some P) : FRec) = some (k', d) from rfl),
      List.map_cons, List.map_cons, List.cons.injEq] at h
    obtain ⟨rfl, h⟩ := h
    have ih := position k R vs (fun y hy => hall y (by simp [hy])) h
    intro j
    cases j with
    | zero =>
      refine ⟨by simp [framesOf], ?_⟩
      intro d v hd
      simp only [List.getElem?_cons_zero, Option.some.injEq, Rec.dyn.injEq] at hd
      exact ⟨f, by simp [hd.1]⟩
    | succ j =>
      refine ⟨?_, by simpa using (ih j).2⟩
      have := (ih j).1
      unfold framesOf at this ⊢
      by_cases hk : k' = k
      · subst hk; simp [dynOf, this]
      · simp [dynOf, hk, this]

/-- The rows of dynamics that a run writes: one for each visit, in this order. -/
theorem chain_dyn {N : ℕ} (hN : 10 ≤ N) {a : Args} (hmol : a.mol.positions ≠ []) (hdef : a.relaxations = none)
    {T P : ℝ} {pairs : List (List ℕ × GFrame PData)} {ending : Option PyErr}
    {file file' : File FRec} {out : Option (List FRec)}
    (h : processFile (cenv a T P) (some (pairs, ending)) true file = (file', .ok out))
    (C : ℕ → Course N)
    (hC : ∀ k, framesOf k (visitsOf (cenv a T P) pairs) ≠ [] →
      (C k).Of a (framesOf k (visitsOf (cenv a T P) pairs))) :
    Dict.get? file' "dynamics" = some (rows file' "dynamics") ∧
    AllDyn (rows file' "dynamics") T P ∧
    ((rows file' "dynamics").filterMap dynPair).map Prod.fst = (visitsOf (cenv a T P) pairs).map Prod.fst := by
  obtain ⟨k0, hk0⟩ := chain_visited h
  obtain ⟨-, -, h1, v, hv, -, hdyn, -⟩ := processFile_ok _ _ _ _ _ _ h
  obtain rfl : (some T, some P) = v := Except.ok.inj hv
  obtain ⟨-, h2, h3, h4⟩ := coreRun_known (cenv a T P) (visitsOf (cenv a T P) pairs) [] [] (Known.nil _) h1
  have hlen : ∀ k, framesOf k (visitsOf (cenv a T P) pairs) ≠ [] →
      ((coreRun (cenv a T P) (visitsOf (cenv a T P) pairs) []).1.2.filterMap (dynOf k)).length =
        (framesOf k (visitsOf (cenv a T P) pairs)).length := by
    intro k hk
    have h5 := h4 k
    simp only [List.nil_append] at h5
    have h6 : soloRows (cenv a T P) (framesOf k []) = [] := rfl
    rw [h6, List.nil_append] at h5
    rw [← h5, course_solo hN hmol hdef (hC k hk)]
    have := congrArg List.length (hC k hk).frames
    rw [this]
    simp [gframes]
  have hne : (coreRun (cenv a T P) (visitsOf (cenv a T P) pairs) []).1.2 ≠ [] := by
    intro h0
    have := hlen k0 hk0
    rw [h0] at this
    exact hk0 (List.length_eq_zero_iff.1 this.symm)
  rw [if_neg hne] at hdyn
  have hall : AllDyn (rows file' "dynamics") T P := by
    rw [hdyn]
    intro r hr
    obtain ⟨k, d, v, rfl, hv⟩ := h3 r hr
    obtain rfl : (some T, some P) = v := Except.ok.inj hv
    exact ⟨k, d, rfl⟩
  refine ⟨?_, hall, ?_⟩
  · cases hg : Dict.get? file' "dynamics" with
    | some d => simp [rows, hg]
    | none =>
      have h0 : rows file' "dynamics" = [] := by simp [rows, hg]
      exact absurd (hdyn.symm.trans h0) hne
  · have hsub := expected_sublist (cenv a T P) (visitsOf (cenv a T P) pairs) []
    rw [hdyn, h2]
    have hperm : ((expected (cenv a T P) [] (visitsOf (cenv a T P) pairs)).map Prod.fst).Perm
        ((visitsOf (cenv a T P) pairs).map Prod.fst) := by
      rw [List.perm_iff_count]
      intro k
      by_cases hk : framesOf k (visitsOf (cenv a T P) pairs) = []
      · have e1 : ((visitsOf (cenv a T P) pairs).map Prod.fst).count k = 0 := by
          rw [count_framesOf, hk]; rfl
        have e2 := hsub.count_le k
        omega
      · rw [count_framesOf k (visitsOf (cenv a T P) pairs), ← hlen k hk, ← h2,
          count_dynOf k _ (by rw [← hdyn]; exact hall)]
    exact hsub.eq_of_length hperm.length_eq

end Verif.Pipeline
