import Verif.Pipeline.ChainDynLemmas
import Verif.Pipeline.ChainProps
import Verif.RelaxTime.Props
/-!
# C112: `comp_dynamics` followed by `comp_relaxations`, the relaxation times of averages
-/

namespace Verif.Pipeline

open Verif.Motion Verif.Dynamics Verif.Relax Verif.Gsd Verif.Process Verif.Cache Verif.Tables

variable {N : ℕ}

/-- The values in a keyframe's rows. -/
theorem decay_rows (hN : 10 ≤ N) {a : Args} (hmol : a.mol.positions ≠ [])
    (hdef : a.relaxations = none) {T P : ℝ}
    {pairs : List (List ℕ × GFrame PData)} {ending : Option PyErr} {file file' : File FRec}
    {out : Option (List FRec)}
    (hrun : processFile (cenv a T P) (some (pairs, ending)) true file = (file', .ok out)) {k : ℕ}
    {C : Course N} (hC : C.Of a (framesOf k (visitsOf (cenv a T P) pairs))) {q : Quantity} {x : ℕ → ℝ}
    (hx : C.Decay a q x) :
    ((rows file' "dynamics").filterMap (dynOf k)).map (fun d => (Dict.get? d q).bind number) =
      (List.range (C.n + 1)).map (fun i => some (x i)) := by
  obtain ⟨hlen, h⟩ := C91_true_motion hN a _ C.c hC.dim hmol hC.pos hdef hrun k hC.box hC.follows
    hC.wave hC.frames
  apply List.ext_getElem?
  intro i
  by_cases hi : i ≤ C.n
  · obtain ⟨row, h1, h2, h3⟩ := h i hi
    rw [List.getElem?_map, h1, List.getElem?_map, List.getElem?_range (by omega)]
    have key : Reports row q (x i) := by
      rcases hx with ⟨rfl, hx⟩ | ⟨rfl, hx⟩ | ⟨rfl, hw, hx⟩ | ⟨rfl, hw, hs, hx⟩
      · rw [hx]; exact h2.rot1
      · rw [hx]; exact h2.rot2
      · rw [hx]; exact (h3 _ hw).1
      · rw [hx]; exact (h3 _ hw).2 hs
    unfold Reports at key
    simp [key, number]
  · rw [List.getElem?_map, List.getElem?_eq_none (by omega), List.getElem?_map,
      List.getElem?_eq_none (by simp; omega)]
    rfl

/-- A keyframe that has the quantity makes all others have it. -/
theorem decay_other {a : Args} {C C' : Course N} {f' : List (GFrame PData)} (hC' : C'.Of a f')
    {q : Quantity} {x : ℕ → ℝ} (hx : C.Decay a q x) : ∃ x', C'.Decay a q x' := by
  have hκ : a.wave = some C.κ → a.wave = some C'.κ := by
    intro h
    have h1 := hC'.wave
    rw [h] at h1 ⊢
    simpa [waveOf] using h1
  rcases hx with ⟨rfl, hx⟩ | ⟨rfl, hx⟩ | ⟨rfl, hw, hx⟩ | ⟨rfl, hw, hs, hx⟩
  · exact ⟨_, Or.inl ⟨rfl, fun _ => rfl⟩⟩
  · exact ⟨_, Or.inr (Or.inl ⟨rfl, fun _ => rfl⟩)⟩
  · exact ⟨_, Or.inr (Or.inr (Or.inl ⟨rfl, hκ hw, fun _ => rfl⟩))⟩
  · exact ⟨_, Or.inr (Or.inr (Or.inr ⟨rfl, hκ hw, hs, fun _ => rfl⟩))⟩

open Classical in
/-- The times are in the table that `comp_relaxations` reads: the column `time` of the rows of a keyframe holds
the times of its frames since the keyframe, in order. -/
theorem C112_times_stored (hN : 10 ≤ N) {a : Args} (hmol : a.mol.positions ≠ [])
    (hdef : a.relaxations = none) {T P : ℝ}
    {pairs : List (List ℕ × GFrame PData)} {ending : Option PyErr} {file file' : File FRec}
    {out : Option (List FRec)}
    (hrun : processFile (cenv a T P) (some (pairs, ending)) true file = (file', .ok out))
    (C : ℕ → Course N)
    (hC : ∀ k, framesOf k (visitsOf (cenv a T P) pairs) ≠ [] →
      (C k).Of a (framesOf k (visitsOf (cenv a T P) pairs))) :
    ∃ tab, (storeOf file').dynamics = some tab ∧ ∀ k, framesOf k (visitsOf (cenv a T P) pairs) ≠ [] →
      (rowsOf tab k T P).map (fun r => r.val "time") =
        (List.range ((C k).n + 1)).map (fun i => some (((C k).t i - (C k).t 0 : ℤ) : ℝ)) := by
  obtain ⟨hget, hall, -⟩ := chain_dyn hN hmol hdef hrun C hC
  refine ⟨dynTable (rows file' "dynamics"), by simp [storeOf, hget], ?_⟩
  intro k hk
  have hCk := hC k hk
  obtain ⟨hval, -⟩ := filter_dyn T P k .time (rows file' "dynamics") (dynTable (rows file' "dynamics")).rows hall
    (map_val_mapIdx _ _)
  obtain ⟨hlen, h⟩ := C91_true_motion hN a _ (C k).c hCk.dim hmol hCk.pos hdef hrun k hCk.box hCk.follows
    hCk.wave hCk.frames
  refine Eq.trans hval ?_
  apply List.ext_getElem?
  intro i
  by_cases hi : i ≤ (C k).n
  · obtain ⟨row, h1, h2, -⟩ := h i hi
    rw [List.getElem?_map, h1, List.getElem?_map, List.getElem?_range (by omega)]
    simp [h2.time, number]
  · rw [List.getElem?_map, List.getElem?_eq_none (by omega), List.getElem?_map,
      List.getElem?_eq_none (by simp; omega)]
    rfl

/-- **C112**, partial: exactly what is reported.  `comp_relaxations` finds the right frame, the first at which
the average is below 1/e (the keyframe itself if there is none), but reports as its time the number, modulo
8192, of pairs of a frame and a keyframe that were processed before it. -/
theorem C112_position_partial (hN : 10 ≤ N) (hN' : N < 2 ^ 32) {a : Args} (hmol : a.mol.positions ≠ [])
    (hdef : a.relaxations = none) {T P : ℝ} (hT : T ≠ 2 ^ 32 - 1) (hP : P ≠ 2 ^ 32 - 1)
    {pairs : List (List ℕ × GFrame PData)} {ending : Option PyErr} {file file' : File FRec}
    {out : Option (List FRec)}
    (hrun : processFile (cenv a T P) (some (pairs, ending)) true file = (file', .ok out))
    (C : ℕ → Course N)
    (hC : ∀ k, framesOf k (visitsOf (cenv a T P) pairs) ≠ [] →
      (C k).Of a (framesOf k (visitsOf (cenv a T P) pairs)) ∧ (k : ℝ) ≠ 2 ^ 32 - 1)
    {signals : Bool} {fit : List (ℝ × ℝ) → Except PyErr RelaxTime.Fit} {hmean : List ℝ → Except PyErr ℝ}
    {res : List Summary}
    (hres : compRelaxations signals fit hmean file' = .ok res) {r : Summary} (hr : r ∈ res) {k : ℕ}
    (hkey : r.key = ((k : ℝ), T, P)) {q : Quantity} {x : ℕ → ℝ} (hx : (C k).Decay a q x) :
    ∃ i j : ℕ, FirstDecayed (C k).n x i ∧
      (∃ f, (visitsOf (cenv a T P) pairs)[j]? = some (k, f)) ∧
      (framesOf k ((visitsOf (cenv a T P) pairs).take j)).length = i ∧
      Dict.get? r.vals (quantityName q) = some (some ((j % 8192 : ℕ) : ℝ)) := by
  classical
  obtain ⟨τ, -, hstore, -, hfull, -⟩ := chain_table hN hN' hmol hdef hT hP hrun C hC
  obtain ⟨hget, hall, hvis⟩ := chain_dyn hN hmol hdef hrun C (fun k hk => (hC k hk).1)
  set R := rows file' "dynamics" with hR
  obtain ⟨-, hkeys⟩ := C54_known_partial hres hstore
  obtain ⟨k0, hk0, -, -, hk, -⟩ := (hfull _ _ _).1 ((hkeys _ _ _).1 (by
    rw [← hkey]; exact List.mem_map_of_mem hr))
  obtain rfl : k = k0 := by exact_mod_cast hk0
  have hd : (storeOf file').dynamics = some (dynTable R) := by simp [storeOf, hget]
  obtain ⟨hval, hpos⟩ := filter_dyn T P k q R (dynTable R).rows hall (map_val_mapIdx R _)
  have hrowsOf : rowsOf (dynTable R) k T P = (dynTable R).rows.filter (fun r => decide (r.Of k T P)) := rfl
  rw [← hrowsOf] at hval hpos
  rw [decay_rows hN hmol hdef hrun (hC k hk).1 hx] at hval
  have hlen : (rowsOf (dynTable R) k T P).length = (C k).n + 1 := by
    have := congrArg List.length hval
    simpa using this
  have hne : rowsOf (dynTable R) k T P ≠ [] := by
    intro h0; rw [h0] at hlen; simp at hlen
  have hcol : quantityName q ∈ (dynTable R).columns := by
    have hRne : R ≠ [] := by
      intro h0
      apply hne
      rw [hrowsOf, h0]
      rfl
    obtain ⟨r0, R', hR'⟩ := List.exists_cons_of_ne_nil hRne
    obtain ⟨k1, d, rfl⟩ := hall r0 (by rw [hR']; simp)
    have hk1 : framesOf k1 (visitsOf (cenv a T P) pairs) ≠ [] := by
      have := count_dynOf k1 R hall
      rw [hvis, count_framesOf, hR'] at this
      intro h0
      rw [h0] at this
      simp [dynOf] at this
    obtain ⟨x', hx'⟩ := decay_other (hC k1 hk1).1 hx
    have h1 := decay_rows hN hmol hdef hrun (hC k1 hk1).1 hx'
    rw [← hR, hR', List.filterMap_cons_some (show dynOf k1 (.dyn k1 d (some T, some P) : FRec) = some d by
      simp [dynOf]), List.range_succ_eq_map] at h1
    simp only [List.map_cons, List.cons.injEq] at h1
    have h2 : ∃ v, Dict.get? d q = some v := by
      cases hg : Dict.get? d q with
      | some v => exact ⟨v, rfl⟩
      | none => rw [hg] at h1; simp at h1
    obtain ⟨v, hv⟩ := h2
    have h3 := Dict.mem_of_get? _ _ _ hv
    simp only [dynTable, hR', recNames, List.mem_append, List.mem_map]
    exact Or.inl ⟨_, h3, rfl⟩
  have hq : q = .rot1 ∨ q = .rot2 ∨ q = .com_struct ∨ q = .scattering_function := by
    rcases hx with ⟨h, _⟩ | ⟨h, _⟩ | ⟨h, _⟩ | ⟨h, _⟩ <;> simp [h]
  obtain ⟨rr, h1, h2, -⟩ := C53_index_partial hres hd hstore hr hkey hne hcol (quantityName_not q)
    (by rcases hq with rfl | rfl | rfl | rfl <;> decide) (by
      have hlast : (quantityName q).toList.reverse.take 2 ≠ ['n', 'a'] := by
        rcases hq with rfl | rfl | rfl | rfl <;> decide
      intro m
      constructor <;> intro h0 <;> apply hlast <;> rw [h0, String.toList_append, List.reverse_append] <;> rfl)
  have hthr : RelaxTime.computeRelaxationValue signals fit ((rowsOf (dynTable R) k T P).map Row.index)
      ((rowsOf (dynTable R) k T P).map (fun r => r.val (quantityName q))) (quantityName q) =
      RelaxTime.thresholdRelaxation signals ((rowsOf (dynTable R) k T P).map Row.index)
        ((rowsOf (dynTable R) k T P).map (fun r => r.val (quantityName q))) := by
    unfold RelaxTime.computeRelaxationValue
    rw [if_neg (by simp)]
    rcases hq with rfl | rfl | rfl | rfl <;>
      rw [if_neg (by decide), if_neg (by decide), if_neg (by decide), if_neg (by decide)]
  rw [hthr, hval] at h1
  have hnone : signals = true → (none : Option ℝ) ∉ (List.range ((C k).n + 1)).map (fun i => some (x i)) := by
    intro _ h; simp at h
  have hget : ∀ i, i ≤ (C k).n →
      ((List.range ((C k).n + 1)).map (fun i => some (x i)))[i]? = some (some (x i)) := by
    intro i hi
    rw [List.getElem?_map, List.getElem?_range (by omega)]; rfl
  have hrow : ∀ i, i ≤ (C k).n → ∃ j : ℕ, ((rowsOf (dynTable R) k T P).map Row.index)[i]? =
      some ((j % 8192 : ℕ) : ℝ) ∧ (∃ f, (visitsOf (cenv a T P) pairs)[j]? = some (k, f)) ∧
      (framesOf k ((visitsOf (cenv a T P) pairs).take j)).length = i := by
    intro i hi
    have hy : (rowsOf (dynTable R) k T P)[i]? = some ((rowsOf (dynTable R) k T P)[i]'(by omega)) :=
      List.getElem?_eq_getElem (by omega)
    obtain ⟨j, e1, ⟨d, e2⟩, e3⟩ := hpos i _ hy
    obtain ⟨p1, p2⟩ := position k R _ hall hvis j
    refine ⟨j, ?_, p2 _ _ e2, by rw [← p1, e3]⟩
    rw [List.getElem?_map, hy]
    simp only [dynTable, List.getElem?_mapIdx, e2, Option.map_some, Option.some.injEq] at e1
    have := congrArg Row.index e1
    rw [Option.map_some]
    exact congrArg some this.symm
  by_cases hex : ∃ i, i ≤ (C k).n ∧ x i < 1 / Real.exp 1
  · have hfind := Nat.find_spec hex
    have hmin := fun j (hj : j < Nat.find hex) => Nat.find_min hex hj
    set i := Nat.find hex with hi
    obtain ⟨j, e1, e2, e3⟩ := hrow i hfind.1
    have hfirst : ∀ j < i, 1 / Real.exp 1 ≤ x j := by
      intro j hj
      have := hmin j hj
      push Not at this
      exact this (by omega)
    have hfb : RelaxTime.FirstBeyond (1 / Real.exp 1) true
        ((List.range ((C k).n + 1)).map (fun i => some (x i))) i := by
      refine ⟨⟨_, hget i hfind.1, by simpa [RelaxTime.Beyond] using hfind.2⟩, ?_⟩
      intro j hj v hv
      rw [hget j (by omega)] at hv
      obtain rfl := Option.some.inj hv
      simpa [RelaxTime.Beyond] using hfirst j hj
    refine ⟨i, j, Or.inl ⟨hfind.1, hfind.2, hfirst⟩, e2, e3, ?_⟩
    rw [h2]
    cases hi' : i with
    | zero =>
      rw [hi'] at hfb e1
      obtain ⟨l, hl⟩ : ∃ l, ((rowsOf (dynTable R) k T P).map Row.index).getLast? = some l :=
        ⟨_, List.getLast?_eq_some_getLast (by simpa using hne)⟩
      rw [RelaxTime.C47_at_once hnone hfb e1 hl] at h1
      rw [← Except.ok.inj h1]
    | succ i' =>
      rw [hi'] at hfb e1
      obtain ⟨j', e1', -⟩ := hrow i' (by omega)
      rw [RelaxTime.C47_threshold_partial hnone hfb e1 e1'] at h1
      rw [← Except.ok.inj h1]
  · push Not at hex
    obtain ⟨j, e1, e2, e3⟩ := hrow 0 (by omega)
    refine ⟨0, j, Or.inr ⟨hex, rfl⟩, e2, e3, ?_⟩
    obtain ⟨l, hl⟩ : ∃ l, ((rowsOf (dynTable R) k T P).map Row.index).getLast? = some l :=
      ⟨_, List.getLast?_eq_some_getLast (by simpa using hne)⟩
    rw [RelaxTime.C47_never hnone (by simp) (by
      intro v hv
      obtain ⟨i, hi, rfl⟩ := List.mem_map.1 hv
      have := hex i (by have := List.mem_range.1 hi; omega)
      simpa [RelaxTime.Beyond] using this) e1 hl] at h1
    rw [h2, ← Except.ok.inj h1]

/-- **C112**, partial, a single keyframe with at most 8192 frames: what is reported is the number of the right
frame, and this is the time since the keyframe if the trajectory has a frame for every step. -/
theorem C112_single_partial (hN : 10 ≤ N) (hN' : N < 2 ^ 32) {a : Args} (hmol : a.mol.positions ≠ [])
    (hdef : a.relaxations = none) {T P : ℝ} (hT : T ≠ 2 ^ 32 - 1) (hP : P ≠ 2 ^ 32 - 1)
    {pairs : List (List ℕ × GFrame PData)} {ending : Option PyErr} {file file' : File FRec}
    {out : Option (List FRec)}
    (hrun : processFile (cenv a T P) (some (pairs, ending)) true file = (file', .ok out)) {k : ℕ}
    (hk : (k : ℝ) ≠ 2 ^ 32 - 1) (C : Course N)
    (honly : ∀ v ∈ visitsOf (cenv a T P) pairs, v.1 = k)
    (hC : C.Of a (framesOf k (visitsOf (cenv a T P) pairs))) (hn : C.n < 8192)
    {signals : Bool} {fit : List (ℝ × ℝ) → Except PyErr RelaxTime.Fit} {hmean : List ℝ → Except PyErr ℝ}
    {res : List Summary}
    (hres : compRelaxations signals fit hmean file' = .ok res) {r : Summary} (hr : r ∈ res)
    (hkey : r.key = ((k : ℝ), T, P)) {q : Quantity} {x : ℕ → ℝ} (hx : C.Decay a q x) :
    ∃ i : ℕ, FirstDecayed C.n x i ∧ Dict.get? r.vals (quantityName q) = some (some (i : ℝ)) ∧
      ((∀ i ≤ C.n, C.t i - C.t 0 = i) →
        Dict.get? r.vals (quantityName q) = some (some ((C.t i - C.t 0 : ℤ) : ℝ))) := by
  have hall : ∀ vs : List (ℕ × GFrame PData), (∀ v ∈ vs, v.1 = k) → framesOf k vs = vs.map Prod.snd := by
    intro vs h
    unfold framesOf
    rw [← List.filterMap_eq_map]
    apply List.filterMap_congr
    intro v hv
    simp [h v hv]
  obtain ⟨i, j, h1, ⟨f, h2⟩, h3, h4⟩ := C112_position_partial hN hN' hmol hdef hT hP hrun (fun _ => C) (by
    intro k' hk'
    obtain rfl : k' = k := by
      by_contra hne
      apply hk'
      unfold framesOf
      rw [List.filterMap_eq_nil_iff]
      intro v hv
      rw [if_neg (by rw [honly v hv]; exact Ne.symm hne)]
    exact ⟨hC, hk⟩) hres hr hkey hx
  have hjlt : j < (visitsOf (cenv a T P) pairs).length := (List.getElem?_eq_some_iff.1 h2).1
  have hij : j = i := by
    rw [hall _ (fun v hv => honly v (List.mem_of_mem_take hv))] at h3
    simp only [List.length_map, List.length_take] at h3
    omega
  have hi : i ≤ C.n := by rcases h1 with ⟨h, -⟩ | ⟨-, h⟩ <;> omega
  subst hij
  rw [Nat.mod_eq_of_lt (by omega)] at h4
  refine ⟨j, h1, h4, fun ht => ?_⟩
  rw [h4, ht j hi]
  simp

/-- The full property: for the quantities that decay from 1, the time reported is that of the first frame at
which the average is below 1/e. -/
def ReportsDecayTimes : Prop :=
  ∀ (N : ℕ) (a : Args) (T P : ℝ) (pairs : List (List ℕ × GFrame PData)) (ending : Option PyErr)
    (file file' : File FRec) (out : Option (List FRec)) (C : ℕ → Course N) (signals : Bool)
    (fit : List (ℝ × ℝ) → Except PyErr RelaxTime.Fit) (hmean : List ℝ → Except PyErr ℝ) (res : List Summary)
    (r : Summary) (k i : ℕ) (q : Quantity) (x : ℕ → ℝ),
    10 ≤ N → N < 2 ^ 32 → a.mol.positions ≠ [] → a.relaxations = none → T ≠ 2 ^ 32 - 1 → P ≠ 2 ^ 32 - 1 →
    processFile (cenv a T P) (some (pairs, ending)) true file = (file', .ok out) →
    (∀ k, framesOf k (visitsOf (cenv a T P) pairs) ≠ [] →
      (C k).Of a (framesOf k (visitsOf (cenv a T P) pairs)) ∧ (k : ℝ) ≠ 2 ^ 32 - 1) →
    Fits fit → IsHarmonicMean hmean → compRelaxations signals fit hmean file' = .ok res → r ∈ res →
    r.key = ((k : ℝ), T, P) → (C k).Decay a q x → FirstDecayed (C k).n x i →
    Dict.get? r.vals (quantityName q) = some (some (((C k).t i - (C k).t 0 : ℤ) : ℝ))

/-- In the example a frame is three steps after the one before.  The proportion of molecules
that have not moved by π/4 falls below 1/e with frame 1, three steps after the keyframe; what is reported is 1. -/
theorem C112_witness : ∃ file' res r,
    processFile (cenv tA 1 2) (some (ePairs, none)) true [] = (file', .ok none) ∧
    compRelaxations true noFit oldHmean file' = .ok res ∧ r ∈ res ∧ r.key = (((0 : ℕ) : ℝ), 1, 2) ∧
    (∃ x, eC.Decay tA .com_struct x ∧ FirstDecayed eC.n x 1 ∧ ∀ i, FirstDecayed eC.n x i → i = 1) ∧
    eC.t 1 - eC.t 0 = 3 ∧ Dict.get? r.vals "com_struct" = some (some 1) := by
  classical
  obtain ⟨file', res, r, hrun, hres, hr, hkey, -, -⟩ := e_chain
  have hmol : tA.mol.positions ≠ [] := by simp [tA, exMol]
  set x : ℕ → ℝ := fun i => ((Finset.univ.filter (fun m => eC.moved m i < Real.pi / (2 * eC.κ))).card : ℝ) /
    ((10 : ℕ) : ℝ) with hxdef
  have hx : eC.Decay tA .com_struct x := Or.inr (Or.inr (Or.inl ⟨rfl, rfl, fun i => by
    rw [hxdef]⟩))
  have hκ : eC.κ = 2 := rfl
  have h1 := Real.pi_gt_three
  have h2 := Real.pi_lt_d2
  have hexp := Real.exp_pos 1
  have x0 : x 0 = 1 := by
    simp only [hxdef, e_moved, hκ]
    rw [Finset.filter_true_of_mem (by intro m _; push_cast; positivity)]
    simp
  have x1 : x 1 = 0 := by
    simp only [hxdef, e_moved, hκ]
    rw [Finset.filter_false_of_mem (by intro m _; push_cast; linarith)]
    simp
  have hlt : 1 / Real.exp 1 < 1 := lt_one
  have hun : ∀ i, FirstDecayed eC.n x i → i = 1 := by
    rintro i (⟨-, h3, h4⟩ | ⟨h3, -⟩)
    · rcases Nat.lt_trichotomy i 1 with h | h | h
      · have : i = 0 := by omega
        rw [this, x0] at h3
        linarith
      · exact h
      · have := h4 1 h
        rw [x1] at this
        have : 0 < 1 / Real.exp 1 := by positivity
        linarith
    · have := h3 1 (by simp [eC])
      rw [x1] at this
      have : 0 < 1 / Real.exp 1 := by positivity
      linarith
  refine ⟨file', res, r, hrun, hres, hr, hkey, ⟨x, hx, Or.inl ⟨by simp [eC], ?_, ?_⟩, hun⟩, by simp [eC, tT], ?_⟩
  · rw [x1]; positivity
  · intro j hj
    have : j = 0 := by omega
    rw [this, x0]
    linarith
  · obtain ⟨i, h3, h4, -⟩ := C112_single_partial (N := 10) (by norm_num) (by norm_num) hmol rfl (by norm_num)
      (by norm_num) hrun (by norm_num) eC (by
        intro v hv
        rw [e_visits] at hv
        obtain ⟨i, -, rfl⟩ := List.mem_map.1 hv
        rfl) e_of (by simp [eC]) hres hr hkey hx
    obtain rfl := hun i h3
    rw [show "com_struct" = quantityName .com_struct from rfl, h4]
    simp

/-- **C112** is false. -/
theorem C112_refuted : ¬ ReportsDecayTimes := by
  intro h
  obtain ⟨file', res, r, hrun, hres, hr, hkey, ⟨x, hx, h1, -⟩, ht, hget⟩ := C112_witness
  have := h 10 tA 1 2 ePairs none [] file' none (fun _ => eC) true noFit oldHmean res r 0 1 .com_struct x
    (by norm_num) (by norm_num) (by simp [tA, exMol]) rfl (by norm_num) (by norm_num) hrun e_C
    (fun _ => Or.inr rfl : Fits noFit) oldHmean_spec hres hr hkey hx h1
  rw [ht, show quantityName .com_struct = "com_struct" from rfl, hget] at this
  norm_num at this

end Verif.Pipeline
