import Verif.Pipeline.ChainDynProps
import Verif.Pipeline.ChainMaxSpec
/-!
# Lemmas for C138
-/

namespace Verif.Pipeline

open Verif.Motion Verif.Dynamics Verif.Relax Verif.Gsd Verif.Process Verif.Cache Verif.Tables

variable {N : ℕ} {ι ν : Type} [DecidableEq ι]

theorem len_zero_iff {v : V3} : len v = 0 ↔ v = 0 := by
  unfold len
  rw [Real.sqrt_eq_zero (len2_nonneg v), len2_eq_zero]

theorem avg_eq_zero_iff {f : Fin N → ℝ} (hf : ∀ m, 0 ≤ f m) : avg f = 0 ↔ ∀ m, f m = 0 := by
  constructor
  · intro h m
    by_contra hm
    have := avg_pos hf (m := m) (lt_of_le_of_ne (hf m) (Ne.symm hm))
    linarith
  · exact avg_zero

/-- The ratios that `compute_all` gives, for tracked motions that are known. -/
theorem ratios_of_motion (hN : 0 < N) {argsort : List ℝ → List ℕ} {D D' : Dyn} {t : ℤ} {pos : List V3}
    {ori : Option (List Quat)} {sc : Bool} {row : Dict Quantity Val}
    (h : D.computeAll argsort t pos ori sc = (D', .ok row)) (d : Fin N → V3) (φ : Fin N → ℝ)
    (hd : D'.motion.deltaT = List.ofFn d) (hr : D'.motion.deltaR = List.ofFn (fun m => (φ m, 0, 0))) :
    TrueRatios row d φ := by
  have hz : ∀ x : ℝ, ((x, 0, 0) : V3) = 0 ↔ x = 0 := by intro x; simp
  have e2 : ∀ m, len ((φ m, 0, 0) : V3) ^ 2 = φ m ^ 2 := fun m => by rw [len_angle, sq_abs]
  have e4 : ∀ m, len ((φ m, 0, 0) : V3) ^ 4 = φ m ^ 4 := fun m => by
    rw [len_angle, show (4 : ℕ) = 2 * 2 from rfl, pow_mul, sq_abs, ← pow_mul]
  have hd0 : avg (fun m => len (d m) ^ 2) = 0 ↔ ∀ m, d m = 0 := by
    rw [avg_eq_zero_iff fun m => sq_nonneg _]
    exact forall_congr' fun m => by rw [sq_eq_zero_iff, len_zero_iff]
  have hr0 : avg (fun m => φ m ^ 2) = 0 ↔ ∀ m, φ m = 0 := by
    rw [avg_eq_zero_iff fun m => sq_nonneg _]
    exact forall_congr' fun m => by rw [sq_eq_zero_iff]
  refine ⟨?_, ?_, ?_⟩
  · obtain ⟨h1, h2⟩ := C34_alpha h hN d hd
    by_cases h0 : ∀ m, d m = 0
    · rw [excess, if_pos (by rw [hd0.2 h0]; norm_num)]
      exact h1 h0
    · rw [excess, if_neg (by simpa using fun h => h0 (hd0.1 h))]
      obtain ⟨x, g1, -, rfl⟩ := h2 (by push Not at h0; exact h0)
      exact g1
  · obtain ⟨h1, h2⟩ := C34_alpha_rot h hN _ hr
    simp only [e2, e4, hz] at h1 h2
    by_cases h0 : ∀ m, φ m = 0
    · rw [excess, if_pos (by rw [hr0.2 h0]; norm_num)]
      exact h1 h0
    · rw [excess, if_neg (by simpa using fun h => h0 (hr0.1 h))]
      obtain ⟨x, g1, -, rfl⟩ := h2 (by
        push Not at h0; obtain ⟨m, hm⟩ := h0; exact ⟨m, by rwa [Ne, hz]⟩)
      exact g1
  · obtain ⟨h1, h2⟩ := C34_gamma h d _ hd hr
    simp only [e2, hz] at h1 h2
    by_cases h0 : (∀ m, d m = 0) ∨ (∀ m, φ m = 0)
    · rw [excess, if_pos (by
        rcases h0 with h0 | h0
        · rw [hd0.2 h0, zero_mul]
        · rw [hr0.2 h0, mul_zero])]
      exact h1 h0
    · rw [not_or] at h0
      rw [excess, if_neg (mul_ne_zero (fun h => h0.1 (hd0.1 h)) (fun h => h0.2 (hr0.1 h)))]
      obtain ⟨x, g1, -, rfl⟩ := h2 (by have := h0.1; push Not at this; exact this) (by
        have := h0.2; push Not at this; obtain ⟨m, hm⟩ := this; exact ⟨m, by rwa [Ne, hz]⟩)
      exact g1

/-- What the two steps make of a quantity, whatever its values are. -/
theorem chain_value (hN : 10 ≤ N) (hN' : N < 2 ^ 32) {a : Args} (hmol : a.mol.positions ≠ [])
    (hdef : a.relaxations = none) {T P : ℝ} (hT : T ≠ 2 ^ 32 - 1) (hP : P ≠ 2 ^ 32 - 1)
    {pairs : List (List ℕ × GFrame PData)} {ending : Option PyErr} {file file' : File FRec}
    {out : Option (List FRec)}
    (hrun : processFile (cenv a T P) (some (pairs, ending)) true file = (file', .ok out))
    (C : ℕ → Course N)
    (hC : ∀ k, framesOf k (visitsOf (cenv a T P) pairs) ≠ [] →
      (C k).Of a (framesOf k (visitsOf (cenv a T P) pairs)) ∧ (k : ℝ) ≠ 2 ^ 32 - 1)
    {signals : Bool} {fit : List (ℝ × ℝ) → Except PyErr RelaxTime.Fit} {hmean : List ℝ → Except PyErr ℝ}
    {res : List Summary}
    (hres : compRelaxations signals fit hmean file' = .ok res) {r : Summary} (hr : r ∈ res) {k : ℕ}
    (hkey : r.key = ((k : ℝ), T, P)) {q : Quantity} {y : ℕ → Option ℝ}
    (hq : quantityName q ∉ ["mean_displacement", "mean_rotation", "mfd", "overlap"])
    (hlast : (quantityName q).toList.reverse.take 2 ≠ ['n', 'a'])
    (hhas : ∀ k', framesOf k' (visitsOf (cenv a T P) pairs) ≠ [] →
      ∀ d ∈ (rows file' "dynamics").filterMap (dynOf k'), ∃ v, Dict.get? d q = some v)
    (hy : framesOf k (visitsOf (cenv a T P) pairs) ≠ [] →
      ((rows file' "dynamics").filterMap (dynOf k)).map (fun d => (Dict.get? d q).bind number) =
        (List.range ((C k).n + 1)).map y) :
    ∃ (j : ℕ → ℕ) (rr : RelaxTime.Result),
      (∀ i ≤ (C k).n, (∃ f, (visitsOf (cenv a T P) pairs)[j i]? = some (k, f)) ∧
        (framesOf k ((visitsOf (cenv a T P) pairs).take (j i))).length = i) ∧
      RelaxTime.computeRelaxationValue signals fit
        ((List.range ((C k).n + 1)).map (fun i => ((j i % 8192 : ℕ) : ℝ)))
        ((List.range ((C k).n + 1)).map y) (quantityName q) = .ok rr ∧
      Dict.get? r.vals (quantityName q) = some rr.mean := by
  classical
  obtain ⟨τ, -, hstore, -, hfull, -⟩ := chain_table hN hN' hmol hdef hT hP hrun C hC
  obtain ⟨hget, hall, hvis⟩ := chain_dyn hN hmol hdef hrun C (fun k hk => (hC k hk).1)
  set R := rows file' "dynamics" with hR
  obtain ⟨-, hkeys⟩ := C54_known_partial hres hstore
  obtain ⟨k0, hk0, -, -, hk, -⟩ := (hfull _ _ _).1 ((hkeys _ _ _).1 (by
    rw [← hkey]; exact List.mem_map_of_mem hr))
  obtain rfl : k = k0 := by exact_mod_cast hk0
  have hd : (storeOf file').dynamics = some (dynTable R) := by simp [storeOf, hget]
  obtain ⟨hval, hpos⟩ := filter_dyn T P k q R (dynTable R).rows hall (map_val_mapIdx R _)
  have hrowsOf : rowsOf (dynTable R) k T P = (dynTable R).rows.filter (fun r => decide (r.Of k T P)) := rfl
  rw [← hrowsOf] at hval hpos
  rw [hy hk] at hval
  have hlen : (rowsOf (dynTable R) k T P).length = (C k).n + 1 := by
    have := congrArg List.length hval
    simpa using this
  have hne : rowsOf (dynTable R) k T P ≠ [] := by
    intro h0; rw [h0] at hlen; simp at hlen
  have hcol : quantityName q ∈ (dynTable R).columns := by
    have hRne : R ≠ [] := by
      intro h0
      apply hne
      rw [hrowsOf, h0]
      rfl
    obtain ⟨r0, R', hR'⟩ := List.exists_cons_of_ne_nil hRne
    obtain ⟨k1, d, rfl⟩ := hall r0 (by rw [hR']; simp)
    have hk1 : framesOf k1 (visitsOf (cenv a T P) pairs) ≠ [] := by
      have := count_dynOf k1 R hall
      rw [hvis, count_framesOf, hR'] at this
      intro h0
      rw [h0] at this
      simp [dynOf] at this
    obtain ⟨v, hv⟩ := hhas k1 hk1 d (by
      rw [hR', List.filterMap_cons_some (show dynOf k1 (.dyn k1 d (some T, some P) : FRec) = some d by
        simp [dynOf])]
      simp)
    have h3 := Dict.mem_of_get? _ _ _ hv
    simp only [dynTable, hR', recNames, List.mem_append, List.mem_map]
    exact Or.inl ⟨_, h3, rfl⟩
  obtain ⟨rr, h1, h2, -⟩ := C53_index_partial hres hd hstore hr hkey hne hcol (quantityName_not q) hq (by
      intro m
      constructor <;> intro h0 <;> apply hlast <;> rw [h0, String.toList_append, List.reverse_append] <;> rfl)
  have hrow : ∀ i, ∃ j : ℕ, i ≤ (C k).n → ((rowsOf (dynTable R) k T P).map Row.index)[i]? =
      some ((j % 8192 : ℕ) : ℝ) ∧ (∃ f, (visitsOf (cenv a T P) pairs)[j]? = some (k, f)) ∧
      (framesOf k ((visitsOf (cenv a T P) pairs).take j)).length = i := by
    intro i
    by_cases hi : i ≤ (C k).n
    · have hy : (rowsOf (dynTable R) k T P)[i]? = some ((rowsOf (dynTable R) k T P)[i]'(by omega)) :=
        List.getElem?_eq_getElem (by omega)
      obtain ⟨j, e1, ⟨d, e2⟩, e3⟩ := hpos i _ hy
      obtain ⟨p1, p2⟩ := position k R _ hall hvis j
      refine ⟨j, fun _ => ⟨?_, p2 _ _ e2, by rw [← p1, e3]⟩⟩
      rw [List.getElem?_map, hy]
      simp only [dynTable, List.getElem?_mapIdx, e2, Option.map_some, Option.some.injEq] at e1
      have := congrArg Row.index e1
      rw [Option.map_some]
      exact congrArg some this.symm
    · exact ⟨0, fun h => absurd h hi⟩
  choose j hj using hrow
  have hidx : (rowsOf (dynTable R) k T P).map Row.index =
      (List.range ((C k).n + 1)).map (fun i => ((j i % 8192 : ℕ) : ℝ)) := by
    apply List.ext_getElem?
    intro i
    by_cases hi : i ≤ (C k).n
    · rw [(hj i hi).1, List.getElem?_map, List.getElem?_range (by omega)]
      rfl
    · rw [List.getElem?_eq_none (by rw [List.length_map]; omega), List.getElem?_eq_none (by simp; omega)]
  refine ⟨j, rr, fun i hi => (hj i hi).2, ?_, h2⟩
  rw [hval, hidx] at h1
  exact h1

/-- `max_time_relaxation` of values at the frames of a course. -/
theorem max_time_frames {n : ℕ} {τ : ℕ → ℝ} {y : ℕ → Option ℝ} {r : RelaxTime.Result}
    (h : RelaxTime.maxTimeRelaxation ((List.range (n + 1)).map τ) ((List.range (n + 1)).map y) = .ok r) :
    (∃ i, FirstPeak n y i ∧ r.mean = some (τ i)) ∨ ((∀ i ≤ n, y i = none) ∧ r.mean = none) := by
  have hl : ((List.range (n + 1)).map τ).length = ((List.range (n + 1)).map y).length := by simp
  have hget : ∀ {β : Type} (f : ℕ → β) i, i ≤ n → ((List.range (n + 1)).map f)[i]? = some (f i) := by
    intro β f i hi
    rw [List.getElem?_map, List.getElem?_range (by omega)]; rfl
  obtain ⟨h1, h2⟩ := RelaxTime.C48_defined _ _ hl
  by_cases h0 : ∀ i ≤ n, y i = none
  · right
    refine ⟨h0, ?_⟩
    rw [(h2 (by
      intro v hv
      obtain ⟨i, hi, rfl⟩ := List.mem_map.1 hv
      exact h0 i (by have := List.mem_range.1 hi; omega))).1] at h
    rw [← Except.ok.inj h]
  · left
    push Not at h0
    obtain ⟨i0, hi0, hy0⟩ := h0
    obtain ⟨x0, hx0⟩ := Option.ne_none_iff_exists'.1 hy0
    obtain ⟨i, x, hp⟩ := h1 ⟨x0, by
      rw [← hx0]; exact List.mem_map_of_mem (List.mem_range.2 (by omega))⟩
    obtain ⟨t, err, e1, e2, -⟩ := RelaxTime.C48_max_time hl hp
    have hi : i ≤ n := by
      have := (List.getElem?_eq_some_iff.1 hp.1).1
      simp at this
      omega
    rw [hget _ i hi] at e2
    obtain rfl := Option.some.inj e2
    rw [e1] at h
    obtain rfl := Except.ok.inj h
    refine ⟨i, ⟨hi, x, ?_, ?_, ?_⟩, rfl⟩
    · have := hp.1
      rw [hget _ i hi] at this
      exact Option.some.inj this
    · intro j hj z hz
      exact hp.2.1 z (by rw [← hz]; exact List.mem_map_of_mem (List.mem_range.2 (by omega)))
    · intro j hj z hz
      exact hp.2.2 j hj z (by rw [hget _ j (by omega), hz])

end Verif.Pipeline
