import Verif.Tables.Props
import Verif.Pipeline.Props
import Verif.Pipeline.ChainModel
import Verif.Pipeline.ChainSpec
/-!
# The tables of a run, as `compute_relaxations` reads them
-/

namespace Verif.Pipeline

open Verif.Motion Verif.Dynamics Verif.Relax Verif.Gsd Verif.Process Verif.Cache Verif.Tables

theorem mem_mapIdx_rows {rs : List FRec} {r : Row} {g : ℕ → ℝ}
    (h : r ∈ rs.mapIdx (fun i r => (⟨g i, recVal r⟩ : Row))) :
    ∃ x ∈ rs, r.val = recVal x := by
  obtain ⟨i, hi, rfl⟩ := List.mem_mapIdx.1 h
  exact ⟨_, List.getElem_mem _, rfl⟩

theorem mem_mapIdx_of {rs : List FRec} {x : FRec} (hx : x ∈ rs) (g : ℕ → ℝ) :
    ∃ r ∈ rs.mapIdx (fun i r => (⟨g i, recVal r⟩ : Row)), r.val = recVal x := by
  obtain ⟨i, hi, rfl⟩ := List.mem_iff_getElem.1 hx
  exact ⟨⟨g i, recVal rs[i]⟩, List.mem_mapIdx.2 ⟨i, hi, rfl⟩, rfl⟩

theorem of_mol {r : Row} {k m : ℕ} {d : Dict String ℤ} {T P : ℝ} {k' : ℕ}
    (h : r.val = recVal (.mol k m d (some T, some P))) : r.Of k' T P ↔ k = k' := by
  unfold Row.Of
  rw [h]
  simp [recVal]

/-- All rows are molecular relaxations at temperature `T` and pressure `P`. -/
def AllMol (rs : List FRec) (T P : ℝ) : Prop := ∀ r ∈ rs, ∃ k m d, r = .mol k m d (some T, some P)

open Classical in
theorem filter_rows (T P : ℝ) (k : ℕ) (c : String)
    (hc : c ∉ ["keyframe", "temperature", "pressure", "molecule"]) : ∀ (rs : List FRec) (R : List Row),
    AllMol rs T P → R.map Row.val = rs.map recVal →
    (R.filter (fun r => decide (r.Of k T P))).filterMap (fun r => r.val c) =
      (rs.filterMap (molOf k)).filterMap (fun p => (Dict.get? p.2 c).map (fun z : ℤ => (z : ℝ)))
  | [], R, _, h => by
    have : R = [] := by simpa using h
    subst this; rfl
  | x :: rs, [], _, h => by simp at h
  | x :: rs, r :: R, hall, h => by
    simp only [List.map_cons, List.cons.injEq] at h
    have ih := filter_rows T P k c hc rs R (fun y hy => hall y (by simp [hy])) h.2
    obtain ⟨k', m, d, rfl⟩ := hall x (by simp)
    have hof := of_mol (k' := k) h.1
    simp only [List.mem_cons, List.not_mem_nil, or_false, not_or] at hc
    by_cases hk : k' = k
    · rw [List.filter_cons_of_pos (by simpa using hof.2 hk)]
      have hv : r.val c = (Dict.get? d c).map (fun z : ℤ => (z : ℝ)) := by
        rw [h.1]; simp [recVal, hc]
      have hm : molOf k (Rec.mol k' m d (some T, some P) : FRec) = some (m, d) := by simp [molOf, hk]
      rw [List.filterMap_cons_some hm]
      simp only [List.filterMap_cons, hv]
      cases (Dict.get? d c) <;> simp only [Option.map_none, Option.map_some] <;> rw [← ih]
    · rw [List.filter_cons_of_neg (by simpa using fun h => hk (hof.1 h))]
      have hm : molOf k (Rec.mol k' m d (some T, some P) : FRec) = none := by simp [molOf, hk]
      rw [List.filterMap_cons_none hm, ← ih]

theorem map_val_mapIdx (rs : List FRec) (g : ℕ → ℝ) :
    (rs.mapIdx (fun i r => (⟨g i, recVal r⟩ : Row))).map Row.val = rs.map recVal := by
  apply List.ext_getElem
  · simp
  · intro i h1 h2
    simp

/-- The times of a keyframe in the table. -/
theorem times_molTable {rs : List FRec} {T P : ℝ} (hall : AllMol rs T P) (k : ℕ) {c : String}
    (hc : c ∉ ["keyframe", "temperature", "pressure", "molecule"]) :
    times (molTable rs) k T P c =
      (rs.filterMap (molOf k)).filterMap (fun p => (Dict.get? p.2 c).map (fun z : ℤ => (z : ℝ))) := by
  unfold times
  exact filter_rows T P k c hc rs _ hall (map_val_mapIdx rs _)

/-- `process_file` with known temperature and pressure. -/
noncomputable abbrev cenv (a : Args) (T P : ℝ) := env a (.ok ((some T, some P) : Vars))

/-- The rows that a run writes. -/
theorem chain_file {a : Args} {T P : ℝ} {pairs : List (List ℕ × GFrame PData)} {ending : Option PyErr}
    {file file' : File FRec} {out : Option (List FRec)}
    (h : processFile (cenv a T P) (some (pairs, ending)) true file =
      (file', .ok out)) :
    Dict.get? file' "molecular_relaxations" = some (rows file' "molecular_relaxations") ∧
    AllMol (rows file' "molecular_relaxations") T P ∧
    ∀ r ∈ rows file' "molecular_relaxations", ∀ k m d v, r = .mol k m d v →
      framesOf k (visitsOf (cenv a T P) pairs) ≠ [] := by
  obtain ⟨-, -, h1, v, hv, -, -, hmol, -⟩ := processFile_ok _ _ _ _ _ _ h
  obtain rfl : (some T, some P) = v := Except.ok.inj hv
  have hrows : rows file' "molecular_relaxations" = molRows (cenv a T P)
      (coreRun (cenv a T P) (visitsOf (cenv a T P) pairs) []).1.1 (some T, some P) := by
    unfold rows; rw [hmol]; rfl
  refine ⟨by rw [hmol, hrows], ?_, ?_⟩
  · rw [hrows]
    intro r hr
    obtain ⟨p, -, hr⟩ := List.mem_flatMap.1 hr
    obtain ⟨i, hi, rfl⟩ := List.mem_mapIdx.1 hr
    exact ⟨_, _, _, rfl⟩
  · rw [hrows]
    intro r hr k m d v hrk
    obtain ⟨p, hp, hr⟩ := List.mem_flatMap.1 hr
    obtain ⟨i, hi, rfl⟩ := List.mem_mapIdx.1 hr
    cases hrk
    obtain ⟨⟨k1, -, k3⟩, -⟩ := coreRun_known (cenv a T P) (visitsOf (cenv a T P) pairs) [] [] (Known.nil _) h1
    intro h0
    have h2 := k1 p.1
    rw [List.nil_append, h0] at h2
    have : Dict.get? (coreRun (cenv a T P) (visitsOf (cenv a T P) pairs) []).1.1 p.1 = none := h2
    rw [Dict.get?_of_mem _ k3 p hp] at this
    cases this

theorem FirstBeyond.pos {n : ℕ} {t : ℕ → ℤ} {x : ℕ → ℝ} {thr : ℝ} {v : ℤ}
    (h : FirstBeyond n (fun i => t i - t 0) x thr v) (h0 : x 0 ≤ thr)
    (ht : ∀ i, 1 ≤ i → i ≤ n → t 0 < t i) : 0 < v := by
  rcases h.1 with rfl | ⟨i, hi, hx, rfl⟩
  · norm_num
  · have : i ≠ 0 := by rintro rfl; linarith
    have := ht i (by omega) hi
    show 0 < t i - t 0
    omega

theorem LastLeft.pos {n : ℕ} {t : ℕ → ℤ} {x : ℕ → ℝ} {thr cut : ℝ} {v : ℤ}
    (h : LastLeft n (fun i => t i - t 0) x thr cut v) (h0 : x 0 ≤ thr)
    (ht : ∀ i, 1 ≤ i → i ≤ n → t 0 < t i) : 0 < v := by
  rcases h with ⟨-, rfl⟩ | ⟨i, j, hi, -, -, hj, hx, -, -, rfl⟩
  · norm_num
  · have : j ≠ 0 := by rintro rfl; linarith
    have := ht j (by omega) (by omega)
    show 0 < t j - t 0
    omega

variable {N : ℕ}

theorem moved_zero (C : Course N) (m : Fin N) : C.moved m 0 = 0 := by
  unfold Course.moved
  rw [sub_self]
  unfold Cell.flat len len2
  split <;> simp

theorem turned_zero (C : Course N) (m : Fin N) : C.turned m 0 = 0 := by simp [Course.turned]

theorem TrueTimes.pos {C : Course N} {τ : String → Fin N → ℤ} (h : TrueTimes C τ) (hκ : 0 < C.κ)
    (ht : ∀ i, 1 ≤ i → i ≤ C.n → C.t 0 < C.t i) : ∀ name ∈ tauNames, ∀ m, 0 < τ name m := by
  have hp := Real.pi_pos
  have h1 : 0 ≤ Real.pi / (2 * C.κ) := by positivity
  intro name hname m
  simp only [tauNames, List.mem_cons, List.not_mem_nil, or_false] at hname
  rcases hname with rfl | rfl | rfl | rfl | rfl | rfl
  · exact (h.D m).pos (by rw [moved_zero]; positivity) ht
  · exact (h.F m).pos (by rw [moved_zero]; positivity) ht
  · exact (h.L m).pos (by rw [moved_zero]; positivity) ht
  · exact (h.T2 m).pos (by rw [turned_zero]; positivity) ht
  · exact (h.T3 m).pos (by rw [turned_zero]; positivity) ht
  · exact (h.T4 m).pos (by rw [turned_zero]; positivity) ht

/-- The rows of molecular relaxations of one keyframe. -/
theorem course_rows (hN : 10 ≤ N) {a : Args} (hmol : a.mol.positions ≠ []) (hdef : a.relaxations = none)
    {ν : Type} {vars : Except PyErr ν}
    {pairs : List (List ℕ × GFrame PData)} {ending : Option PyErr}
    {file file' : File (Rec ℕ (Dict Quantity Val) (Dict String ℤ) ν)}
    {out : Option (List (Rec ℕ (Dict Quantity Val) (Dict String ℤ) ν))}
    (h : processFile (env a vars) (some (pairs, ending)) true file = (file', .ok out)) {k : ℕ} {C : Course N}
    (hC : C.Of a (framesOf k (visitsOf (env a vars) pairs))) :
    ∃ (τ : String → Fin N → ℤ) (row : Fin N → Dict String ℤ), TrueTimes C τ ∧
      (rows file' "molecular_relaxations").filterMap (molOf k) = List.ofFn (fun m => (m.1, row m)) ∧
      ∀ m, (row m).map Prod.fst = tauNames ∧ ∀ name ∈ tauNames, Dict.get? (row m) name = some (τ name m) := by
  have hb : createFreudBox (C.box 0) (is2d (some a.mol)) = .ok C.c.box := by
    rw [hC.box, show is2d (some a.mol) = C.c.is2D from hC.dim]
    exact createFreudBox_cell C.c
  obtain ⟨-, -, h2, -⟩ := keyframe_rows hN hb hC.follows.unit hC.wave hC.pos hdef hmol h hC.frames
  have hdist : 0 < Real.pi / (2 * C.κ) := by have := Real.pi_pos; have := hC.pos; positivity
  obtain ⟨d, hd, hne, hnames, -⟩ := default_cells N (Real.pi / (2 * C.κ)) Real.pi hdist.le
    Real.pi_pos.le ((List.range (C.n + 1)).map (seen C.c.box C.t C.s C.o)) (by
      intro f hf
      obtain ⟨i, _, rfl⟩ := List.mem_map.1 hf
      simp [seen])
  have hrel : (relAfter C.c.box C.t C.s C.o C.κ (C.n + 1)).relax = d := by simp [relAfter, hd]
  have hnum : (relAfter C.c.box C.t C.s C.o C.κ (C.n + 1)).num = N := rfl
  have hs : (relAfter C.c.box C.t C.s C.o C.κ (C.n + 1)).summary = (List.range N).map (fun m =>
      (Relax.summary d).map (fun c => (c.1, c.2.getD m 0))) := by
    unfold Relx.summary
    rw [hrel, hnum]
    split
    · exact absurd rfl hne
    · rfl
  set row : Fin N → Dict String ℤ := fun m => (Relax.summary d).map (fun c => (c.1, c.2.getD m 0)) with hrow
  have hofn : (relAfter C.c.box C.t C.s C.o C.κ (C.n + 1)).summary.mapIdx (fun m r => (m, r)) =
      List.ofFn (fun m => (m.1, row m)) := by
    rw [hs]
    apply List.ext_getElem
    · simp
    · intro i h1 h2
      simp [hrow]
  have hfst : ∀ m, (row m).map Prod.fst = tauNames := by
    intro m
    rw [hrow]
    simp only [Relax.summary, List.map_map]
    rw [show tauNames = d.map Prod.fst from hnames.symm]
    rfl
  have hcell : ∀ (m : Fin N) name, molCell (List.ofFn (fun m => (m.1, row m))) m name = Dict.get? (row m) name := by
    intro m name
    rw [← hofn]
    unfold molCell
    rw [find_mapIdx, hs]
    simp [hrow]
  refine ⟨fun name m => (Dict.get? (row m) name).getD 0, row, ?_, by rw [h2, hofn], fun m => ⟨hfst m, ?_⟩⟩
  · have key := fun m => C93_relaxations hN a vars C.c hC.dim hmol hC.pos hdef h k hC.box hC.follows hC.wave
      hC.frames m
    have hget : ∀ (m : Fin N) name x, molCell ((rows file' "molecular_relaxations").filterMap (molOf k)) m name =
        some x → (Dict.get? (row m) name).getD 0 = x := by
      intro m name x hx
      rw [h2, hofn, hcell] at hx
      rw [hx]; rfl
    refine ⟨?_, ?_, ?_, ?_, ?_, ?_⟩ <;> intro m <;>
      obtain ⟨D, F, L, T2, T3, T4, hh, hD, hF, hL, h2, h3, h4⟩ := key m
    · rw [hget m _ D (hh ("tau_D", D) (by simp))]; exact hD
    · rw [hget m _ F (hh ("tau_F", F) (by simp))]; exact hF
    · rw [hget m _ L (hh ("tau_L", L) (by simp))]; exact hL
    · rw [hget m _ T2 (hh ("tau_T2", T2) (by simp))]; exact h2
    · rw [hget m _ T3 (hh ("tau_T3", T3) (by simp))]; exact h3
    · rw [hget m _ T4 (hh ("tau_T4", T4) (by simp))]; exact h4
  · intro name hname
    rw [← hfst m] at hname
    obtain ⟨p, hp, rfl⟩ := List.mem_map.1 hname
    have hnd : ((row m).map Prod.fst).Nodup := by rw [hfst m]; unfold tauNames; decide
    show _ = some ((Dict.get? (row m) p.1).getD 0)
    rw [Dict.get?_of_mem _ hnd p hp]; rfl

/-- An entry in the first of two dictionaries. -/
theorem get?_left {d d' : Dict String (Option ℝ)} {c : String} {v : Option ℝ} (h : (c, v) ∈ d)
    (hu : ∀ v', (c, v') ∈ d → v' = v) : Dict.get? (d ++ d') c = some v := by
  induction d with
  | nil => cases h
  | cons x d ih =>
    obtain ⟨c', v'⟩ := x
    rw [List.cons_append]
    by_cases hc : c' = c
    · subst hc
      simp only [Dict.get?, if_pos]
      rw [hu v' (by simp)]
    · simp only [Dict.get?, if_neg hc]
      apply ih
      · rcases List.mem_cons.1 h with h | h
        · exact absurd (Prod.mk.inj h).1.symm hc
        · exact h
      · exact fun v' hv' => hu v' (List.mem_cons_of_mem _ hv')

theorem append_right {a b x : String} (h : a ++ x = b ++ x) : a = b := by
  have := congrArg String.toList h
  rw [String.toList_append, String.toList_append] at this
  exact String.toList_inj.1 (List.append_cancel_right this)

theorem mean_ne_hmean (a b : String) : a ++ "_mean" ≠ b ++ "_hmean" := by
  intro h
  have h := congrArg String.toList h
  rw [String.toList_append, String.toList_append,
    show "_mean".toList = ['_'] ++ ['m', 'e', 'a', 'n'] from rfl,
    show "_hmean".toList = ['_', 'h'] ++ ['m', 'e', 'a', 'n'] from rfl,
    ← List.append_assoc, ← List.append_assoc] at h
  have h := congrArg List.getLast? (List.append_cancel_right h)
  simp at h

/-- A run that returned has seen a keyframe. -/
theorem chain_visited {a : Args} {T P : ℝ} {pairs : List (List ℕ × GFrame PData)} {ending : Option PyErr}
    {file file' : File FRec} {out : Option (List FRec)}
    (h : processFile (cenv a T P) (some (pairs, ending)) true file = (file', .ok out)) :
    ∃ k, framesOf k (visitsOf (cenv a T P) pairs) ≠ [] := by
  obtain ⟨-, -, -, v, -, hne, -⟩ := processFile_ok _ _ _ _ _ _ h
  by_contra h0
  push Not at h0
  have : visitsOf (cenv a T P) pairs = [] := by
    cases hv : visitsOf (cenv a T P) pairs with
    | nil => rfl
    | cons x l =>
      have := h0 x.1
      rw [hv] at this
      simp [framesOf] at this
  rw [this] at hne
  exact hne rfl

theorem pyAt_ok {α : Type} {l : List α} {i : ℤ} (h1 : -(l.length : ℤ) ≤ i) (h2 : i < l.length) :
    ∃ x, RelaxTime.pyAt l i = .ok x := by
  unfold RelaxTime.pyAt
  simp only
  split
  · rw [if_pos (by omega), List.getElem?_eq_getElem (by omega)]
    exact ⟨_, rfl⟩
  · rw [if_pos (by omega), List.getElem?_eq_getElem (by omega)]
    exact ⟨_, rfl⟩

theorem maxTime_ok {time : List ℝ} {value : List (Option ℝ)} (hl : time.length = value.length) :
    ∃ r, RelaxTime.maxTimeRelaxation time value = .ok r := by
  unfold RelaxTime.maxTimeRelaxation
  rw [if_neg (by simpa using hl)]
  cases hi : RelaxTime.nanargmax value with
  | error e => exact ⟨_, rfl⟩
  | ok i =>
    have hlt : i < time.length := by
      unfold RelaxTime.nanargmax at hi
      split at hi
      · rename_i j hj
        obtain rfl := Except.ok.inj hi
        rw [hl]
        exact (List.findIdx?_eq_some_iff_findIdx_eq.1 hj).1
      · cases hi
    obtain ⟨x, hx⟩ := pyAt_ok (l := time) (i := i) (by omega) (by omega)
    obtain ⟨y, hy⟩ := pyAt_ok (l := time) (i := (i : ℤ) - 1) (by omega) (by omega)
    simp only
    split
    · rw [hx, hy]; exact ⟨_, rfl⟩
    · rename_i hlast
      obtain ⟨z, hz⟩ := pyAt_ok (l := time) (i := (i : ℤ) + 1) (by omega) (by omega)
      split
      · rw [hx, hz]; exact ⟨_, rfl⟩
      · rw [hx, hy, hz]; exact ⟨_, rfl⟩

theorem diffusion_ok (signals : Bool) {fit : List (ℝ × ℝ) → Except PyErr RelaxTime.Fit} (hfit : Fits fit)
    {time : List ℝ} {value : List (Option ℝ)} (hl : time.length = value.length) (d : ℕ) :
    ∃ r, RelaxTime.diffusionConstant signals fit time value d = .ok r := by
  unfold RelaxTime.diffusionConstant
  split
  · exact ⟨_, rfl⟩
  split
  · exact ⟨_, rfl⟩
  rw [if_neg (by simpa using hl)]
  rcases hfit (RelaxTime.region 2 50 time value) with ⟨f, hf, h0, h1⟩ | hf
  · rw [hf]
    simp only [RelaxTime.npSqrt, if_neg (not_lt.2 h0), if_neg (not_lt.2 h1)]
    exact ⟨_, rfl⟩
  · rw [hf]; exact ⟨_, rfl⟩

/-- Nothing but the fit and the harmonic mean can make it raise. -/
theorem computeRelaxations_returns (signals : Bool) {fit : List (ℝ × ℝ) → Except PyErr RelaxTime.Fit}
    (hfit : Fits fit) {hmean : List ℝ → Except PyErr ℝ} {src : Store} (h5 : src.hdf5 = true)
    {dyn mol : Table} (hd : src.dynamics = some dyn) (hmol : src.molecular = some mol) {m : List Summary}
    (hm : computeMolecularRelaxations hmean mol = .ok m) :
    ∃ out, computeRelaxations signals fit hmean src = .ok out := by
  have hc : ∃ cols, relaxationColumns signals fit dyn.dropExtra dyn.dropExtra.dataColumns =
      .ok cols := by
    apply columns_of
    intro c hc
    apply column_of
    intro k hk
    obtain ⟨r, hr, hrk⟩ := mem_keys.1 hk
    have hne : dyn.dropExtra.group k ≠ [] := List.ne_nil_of_mem (mem_group.2 ⟨hr, hrk⟩)
    unfold seriesRelaxationValue
    have : ∃ r, RelaxTime.computeRelaxationValue signals fit ((dyn.dropExtra.group k).map Row.index)
        ((dyn.dropExtra.group k).map (fun r => r.val c)) c = .ok r := by
      unfold RelaxTime.computeRelaxationValue
      rw [if_neg (by simp)]
      split
      · exact diffusion_ok _ hfit (by simp) _
      split
      · exact diffusion_ok _ hfit (by simp) _
      split
      · exact threshold_ok _ (by simp) (by simpa using hne) _ _
      split
      · exact maxTime_ok (by simp)
      · exact threshold_ok _ (by simp) (by simpa using hne) _ _
    obtain ⟨r, hr⟩ := this
    rw [hr]
    exact ⟨_, rfl⟩
  obtain ⟨cols, hc⟩ := hc
  unfold computeRelaxations
  simp only [h5, Bool.not_true, Bool.false_eq_true, if_false, hd, hmol, hc, hm]
  exact ⟨_, rfl⟩

/-- The table of molecular relaxations of a run. -/
theorem chain_table (hN : 10 ≤ N) (hN' : N < 2 ^ 32) {a : Args} (hmol : a.mol.positions ≠ [])
    (hdef : a.relaxations = none) {T P : ℝ} (hT : T ≠ 2 ^ 32 - 1) (hP : P ≠ 2 ^ 32 - 1)
    {pairs : List (List ℕ × GFrame PData)} {ending : Option PyErr} {file file' : File FRec}
    {out : Option (List FRec)}
    (hrun : processFile (cenv a T P) (some (pairs, ending)) true file = (file', .ok out))
    (C : ℕ → Course N)
    (hC : ∀ k, framesOf k (visitsOf (cenv a T P) pairs) ≠ [] →
      (C k).Of a (framesOf k (visitsOf (cenv a T P) pairs)) ∧ (k : ℝ) ≠ 2 ^ 32 - 1) :
    ∃ τ : ℕ → String → Fin N → ℤ,
      (∀ k, framesOf k (visitsOf (cenv a T P) pairs) ≠ [] → TrueTimes (C k) (τ k)) ∧
      (storeOf file').molecular = some (molTable (rows file' "molecular_relaxations")) ∧
      (molTable (rows file' "molecular_relaxations")).columns =
        "keyframe" :: "molecule" :: tauNames ++ ["temperature", "pressure"] ∧
      (∀ k' T' P', FullyRelaxed (molTable (rows file' "molecular_relaxations")) k' T' P' ↔
        ∃ k : ℕ, k' = k ∧ T' = T ∧ P' = P ∧
          framesOf k (visitsOf (cenv a T P) pairs) ≠ [] ∧ AllRelaxed (τ k)) ∧
      (∀ k, framesOf k (visitsOf (cenv a T P) pairs) ≠ [] → ∀ name ∈ tauNames,
        times (molTable (rows file' "molecular_relaxations")) k T P name =
          List.ofFn (fun m => (τ k name m : ℝ))) := by
  classical
  obtain ⟨hget, hall, hvis⟩ := chain_file hrun
  set R := rows file' "molecular_relaxations" with hR
  have hex : ∀ k, ∃ (τ : String → Fin N → ℤ) (row : Fin N → Dict String ℤ),
      framesOf k (visitsOf (cenv a T P) pairs) ≠ [] → TrueTimes (C k) τ ∧
      R.filterMap (molOf k) = List.ofFn (fun m => (m.1, row m)) ∧
      ∀ m, (row m).map Prod.fst = tauNames ∧ ∀ name ∈ tauNames, Dict.get? (row m) name = some (τ name m) := by
    intro k
    by_cases hk : framesOf k (visitsOf (cenv a T P) pairs) = []
    · exact ⟨fun _ _ => 0, fun _ => [], fun h => absurd hk h⟩
    · obtain ⟨τ, row, h⟩ := course_rows hN hmol hdef hrun (hC k hk).1
      exact ⟨τ, row, fun _ => h⟩
  choose τ row hτ using hex
  have hmem : ∀ r ∈ R, ∃ (k : ℕ) (m : Fin N), framesOf k (visitsOf (cenv a T P) pairs) ≠ [] ∧
      r = .mol k m (row k m) (some T, some P) := by
    intro r hr
    obtain ⟨k, m, d, rfl⟩ := hall r hr
    have hk := hvis _ hr k m d _ rfl
    have : (m, d) ∈ R.filterMap (molOf k) := List.mem_filterMap.2 ⟨_, hr, by simp [molOf]⟩
    rw [(hτ k hk).2.1, List.mem_ofFn] at this
    obtain ⟨m', hm'⟩ := this
    obtain ⟨rfl, rfl⟩ := Prod.mk.inj hm'
    exact ⟨k, m', hk, rfl⟩
  have hmem' : ∀ k, framesOf k (visitsOf (cenv a T P) pairs) ≠ [] → ∀ m : Fin N,
      (.mol k m (row k m) (some T, some P) : FRec) ∈ R := by
    intro k hk m
    have : (m.1, row k m) ∈ R.filterMap (molOf k) := by
      rw [(hτ k hk).2.1, List.mem_ofFn]; exact ⟨m, rfl⟩
    obtain ⟨r, hr, hr'⟩ := List.mem_filterMap.1 this
    obtain ⟨k', m', hk', rfl⟩ := hmem r hr
    simp only [molOf] at hr'
    split at hr'
    · rename_i h; subst h
      simp only [Option.some.injEq, Prod.mk.injEq] at hr'
      obtain ⟨e1, -⟩ := hr'
      have : m' = m := Fin.ext e1
      rw [← this]; exact hr
    · cases hr'
  have hcols : R ≠ [] → (molTable R).columns =
      "keyframe" :: "molecule" :: tauNames ++ ["temperature", "pressure"] := by
    intro hne
    obtain ⟨r, R', hR'⟩ := List.exists_cons_of_ne_nil hne
    obtain ⟨k, m, hk, rfl⟩ := hmem r (by rw [hR']; simp)
    simp [molTable, hR', recNames, ((hτ k hk).2.2 m).1]
  have hval : ∀ k, framesOf k (visitsOf (cenv a T P) pairs) ≠ [] → ∀ m : Fin N, ∀ name ∈ tauNames,
      recVal (.mol k m (row k m) (some T, some P)) name = some (τ k name m : ℝ) := by
    intro k hk m name hname
    have h1 := ((hτ k hk).2.2 m).2 name hname
    have h2 : name ≠ "keyframe" ∧ name ≠ "temperature" ∧ name ≠ "pressure" ∧ name ≠ "molecule" := by
      simp only [tauNames, List.mem_cons, List.not_mem_nil, or_false] at hname
      rcases hname with rfl | rfl | rfl | rfl | rfl | rfl <;> decide
    simp [recVal, h2, h1]
  have hfull : ∀ k' T' P', FullyRelaxed (molTable R) k' T' P' ↔ ∃ k : ℕ, k' = k ∧ T' = T ∧ P' = P ∧
        framesOf k (visitsOf (cenv a T P) pairs) ≠ [] ∧ AllRelaxed (τ k) := by
    intro k' T' P'
    constructor
    · rintro ⟨⟨r, hr, ho⟩, hrel⟩
      obtain ⟨r0, hr0, hrv⟩ := mem_mapIdx_rows hr
      obtain ⟨k, m, hk, rfl⟩ := hmem r0 hr0
      obtain ⟨e1, e2, e3⟩ := ho
      rw [hrv] at e1 e2 e3
      simp [recVal] at e1 e2 e3
      refine ⟨k, e1.symm, e2.symm, e3.symm, hk, ?_⟩
      intro name hname m'
      obtain ⟨r1, hr1, hr1v⟩ := mem_mapIdx_of (hmem' k hk m') (fun i => (i : ℝ))
      obtain ⟨x, hx, hx'⟩ := hrel _ hr1 (by
        refine ⟨?_, ?_, ?_⟩ <;> rw [hr1v] <;> simp [recVal, e1, e2, e3]) name (by
        rw [hcols (List.ne_nil_of_mem hr0)]
        simp [hname])
      rw [hr1v, hval k hk m' name hname] at hx
      obtain rfl := Option.some.inj hx
      intro h0
      rw [h0] at hx'
      norm_num at hx'
    · rintro ⟨k, rfl, rfl, rfl, hk, hrel⟩
      obtain ⟨r1, hr1, hr1v⟩ := mem_mapIdx_of (hmem' k hk ⟨0, by omega⟩) (fun i => (i : ℝ))
      refine ⟨⟨_, hr1, by refine ⟨?_, ?_, ?_⟩ <;> rw [hr1v] <;> simp [recVal]⟩, ?_⟩
      intro r hr ho c hc
      obtain ⟨r0, hr0, hrv⟩ := mem_mapIdx_rows hr
      obtain ⟨k', m, hk', rfl⟩ := hmem r0 hr0
      rw [hcols (List.ne_nil_of_mem hr0)] at hc
      have e1 : k' = k := by
        have := ho.1
        rw [hrv] at this
        simp [recVal] at this
        exact this
      subst e1
      rw [hrv]
      by_cases hname : c ∈ tauNames
      · refine ⟨_, hval k' hk m c hname, ?_⟩
        have := hrel c hname m
        intro h0
        exact this (by exact_mod_cast h0)
      · simp [hname] at hc
        rcases hc with rfl | rfl | rfl | rfl
        · exact ⟨k', by simp [recVal], (hC k' hk).2⟩
        · refine ⟨m, by simp [recVal], ?_⟩
          intro h0
          have h1 : ((m : ℕ) : ℝ) < 2 ^ 32 - 1 := by
            have := m.2
            have h2 : (m : ℕ) + 1 < 2 ^ 32 := by omega
            have h3 : (((m : ℕ) + 1 : ℕ) : ℝ) < ((2 ^ 32 : ℕ) : ℝ) := by exact_mod_cast h2
            push_cast at h3
            linarith
          linarith
        · exact ⟨T', by simp [recVal], hT⟩
        · exact ⟨P', by simp [recVal], hP⟩
  obtain ⟨k0, hk0⟩ := chain_visited hrun
  refine ⟨τ, fun k hk => (hτ k hk).1, by simp [storeOf, hget, hR],
    hcols (List.ne_nil_of_mem (hmem' k0 hk0 ⟨0, by omega⟩)), hfull, ?_⟩
  intro k hk name hname
  have hnot : name ∉ ["keyframe", "temperature", "pressure", "molecule"] := by
    simp only [tauNames, List.mem_cons, List.not_mem_nil, or_false] at hname
    rcases hname with rfl | rfl | rfl | rfl | rfl | rfl <;> decide
  rw [times_molTable hall k hnot, (hτ k hk).2.1]
  have : ∀ l : List (Fin N), (l.map (fun m => (m.1, row k m))).filterMap
      (fun p => (Dict.get? p.2 name).map (fun z : ℤ => (z : ℝ))) = l.map (fun m => (τ k name m : ℝ)) := by
    intro l
    rw [List.filterMap_map]
    rw [← List.filterMap_eq_map]
    apply List.filterMap_congr
    intro m _
    simp [((hτ k hk).2.2 m).2 name hname]
  rw [List.ofFn_eq_map, this, List.ofFn_eq_map]

end Verif.Pipeline
