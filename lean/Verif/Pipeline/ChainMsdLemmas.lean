import Verif.Pipeline.ChainDynProps
import Verif.Pipeline.ChainMsdSpec
/-!
# Lemmas for C128
-/

namespace Verif.Pipeline

open Verif.Motion Verif.Dynamics Verif.Relax Verif.Gsd Verif.Process Verif.Cache Verif.Tables

variable {N : ℕ}

/-- The values in a keyframe's rows. -/
theorem spread_rows (hN : 10 ≤ N) {a : Args} (hmol : a.mol.positions ≠ [])
    (hdef : a.relaxations = none) {T P : ℝ}
    {pairs : List (List ℕ × GFrame PData)} {ending : Option PyErr} {file file' : File FRec}
    {out : Option (List FRec)}
    (hrun : processFile (cenv a T P) (some (pairs, ending)) true file = (file', .ok out)) {k : ℕ}
    {C : Course N} (hC : C.Of a (framesOf k (visitsOf (cenv a T P) pairs))) {q : Quantity} {d : ℕ} {x : ℕ → ℝ}
    (hx : C.Spread q d x) :
    ((rows file' "dynamics").filterMap (dynOf k)).map (fun d => (Dict.get? d q).bind number) =
      (List.range (C.n + 1)).map (fun i => some (x i)) := by
  obtain ⟨hlen, h⟩ := C91_true_motion hN a _ C.c hC.dim hmol hC.pos hdef hrun k hC.box hC.follows
    hC.wave hC.frames
  apply List.ext_getElem?
  intro i
  by_cases hi : i ≤ C.n
  · obtain ⟨row, h1, h2, h3⟩ := h i hi
    rw [List.getElem?_map, h1, List.getElem?_map, List.getElem?_range (by omega)]
    have key : Reports row q (x i) := by
      rcases hx with ⟨rfl, -, hx⟩ | ⟨rfl, -, hx⟩
      · rw [hx]; exact h2.msd
      · rw [hx]; exact h2.msr
    unfold Reports at key
    simp [key, number]
  · rw [List.getElem?_map, List.getElem?_eq_none (by omega), List.getElem?_map,
      List.getElem?_eq_none (by simp; omega)]
    rfl

theorem spread_other {C C' : Course N} {q : Quantity} {d : ℕ} {x : ℕ → ℝ} (hx : C.Spread q d x) :
    ∃ x', C'.Spread q d x' := by
  rcases hx with ⟨rfl, rfl, -⟩ | ⟨rfl, rfl, -⟩
  · exact ⟨_, Or.inl ⟨rfl, rfl, fun _ => rfl⟩⟩
  · exact ⟨_, Or.inr ⟨rfl, rfl, fun _ => rfl⟩⟩

/-- What the two steps make of the mean squared displacement: the fit is to the values at the positions of the
rows. -/
theorem chain_spread (hN : 10 ≤ N) (hN' : N < 2 ^ 32) {a : Args} (hmol : a.mol.positions ≠ [])
    (hdef : a.relaxations = none) {T P : ℝ} (hT : T ≠ 2 ^ 32 - 1) (hP : P ≠ 2 ^ 32 - 1)
    {pairs : List (List ℕ × GFrame PData)} {ending : Option PyErr} {file file' : File FRec}
    {out : Option (List FRec)}
    (hrun : processFile (cenv a T P) (some (pairs, ending)) true file = (file', .ok out))
    (C : ℕ → Course N)
    (hC : ∀ k, framesOf k (visitsOf (cenv a T P) pairs) ≠ [] →
      (C k).Of a (framesOf k (visitsOf (cenv a T P) pairs)) ∧ (k : ℝ) ≠ 2 ^ 32 - 1)
    {signals : Bool} {fit : List (ℝ × ℝ) → Except PyErr RelaxTime.Fit} {hmean : List ℝ → Except PyErr ℝ}
    {res : List Summary}
    (hres : compRelaxations signals fit hmean file' = .ok res) {r : Summary} (hr : r ∈ res) {k : ℕ}
    (hkey : r.key = ((k : ℝ), T, P)) {q : Quantity} {d : ℕ} {x : ℕ → ℝ} (hx : (C k).Spread q d x) :
    ∃ (j : ℕ → ℕ) (rr : RelaxTime.Result),
      (∀ i ≤ (C k).n, (∃ f, (visitsOf (cenv a T P) pairs)[j i]? = some (k, f)) ∧
        (framesOf k ((visitsOf (cenv a T P) pairs).take (j i))).length = i) ∧
      RelaxTime.diffusionConstant signals fit ((List.range ((C k).n + 1)).map (fun i => ((j i % 8192 : ℕ) : ℝ)))
        ((List.range ((C k).n + 1)).map (fun i => some (x i))) d = .ok rr ∧
      Dict.get? r.vals (quantityName q) = some rr.mean := by
  classical
  obtain ⟨τ, -, hstore, -, hfull, -⟩ := chain_table hN hN' hmol hdef hT hP hrun C hC
  obtain ⟨hget, hall, hvis⟩ := chain_dyn hN hmol hdef hrun C (fun k hk => (hC k hk).1)
  set R := rows file' "dynamics" with hR
  obtain ⟨-, hkeys⟩ := C54_known_partial hres hstore
  obtain ⟨k0, hk0, -, -, hk, -⟩ := (hfull _ _ _).1 ((hkeys _ _ _).1 (by
    rw [← hkey]; exact List.mem_map_of_mem hr))
  obtain rfl : k = k0 := by exact_mod_cast hk0
  have hd : (storeOf file').dynamics = some (dynTable R) := by simp [storeOf, hget]
  obtain ⟨hval, hpos⟩ := filter_dyn T P k q R (dynTable R).rows hall (map_val_mapIdx R _)
  have hrowsOf : rowsOf (dynTable R) k T P = (dynTable R).rows.filter (fun r => decide (r.Of k T P)) := rfl
  rw [← hrowsOf] at hval hpos
  rw [spread_rows hN hmol hdef hrun (hC k hk).1 hx] at hval
  have hlen : (rowsOf (dynTable R) k T P).length = (C k).n + 1 := by
    have := congrArg List.length hval
    simpa using this
  have hne : rowsOf (dynTable R) k T P ≠ [] := by
    intro h0; rw [h0] at hlen; simp at hlen
  have hcol : quantityName q ∈ (dynTable R).columns := by
    have hRne : R ≠ [] := by
      intro h0
      apply hne
      rw [hrowsOf, h0]
      rfl
    obtain ⟨r0, R', hR'⟩ := List.exists_cons_of_ne_nil hRne
    obtain ⟨k1, d, rfl⟩ := hall r0 (by rw [hR']; simp)
    have hk1 : framesOf k1 (visitsOf (cenv a T P) pairs) ≠ [] := by
      have := count_dynOf k1 R hall
      rw [hvis, count_framesOf, hR'] at this
      intro h0
      rw [h0] at this
      simp [dynOf] at this
    obtain ⟨x', hx'⟩ := spread_other (C' := C k1) hx
    have h1 := spread_rows hN hmol hdef hrun (hC k1 hk1).1 hx'
    rw [← hR, hR', List.filterMap_cons_some (show dynOf k1 (.dyn k1 d (some T, some P) : FRec) = some d by
      simp [dynOf]), List.range_succ_eq_map] at h1
    simp only [List.map_cons, List.cons.injEq] at h1
    have h2 : ∃ v, Dict.get? d q = some v := by
      cases hg : Dict.get? d q with
      | some v => exact ⟨v, rfl⟩
      | none => rw [hg] at h1; simp at h1
    obtain ⟨v, hv⟩ := h2
    have h3 := Dict.mem_of_get? _ _ _ hv
    simp only [dynTable, hR', recNames, List.mem_append, List.mem_map]
    exact Or.inl ⟨_, h3, rfl⟩
  have hq : q = .msd ∧ d = 2 ∨ q = .msr ∧ d = 1 := by
    rcases hx with ⟨h, h', _⟩ | ⟨h, h', _⟩ <;> simp [h, h']
  obtain ⟨rr, h1, h2, -⟩ := C53_index_partial hres hd hstore hr hkey hne hcol (quantityName_not q)
    (by rcases hq with ⟨rfl, -⟩ | ⟨rfl, -⟩ <;> decide) (by
      have hlast : (quantityName q).toList.reverse.take 2 ≠ ['n', 'a'] := by
        rcases hq with ⟨rfl, -⟩ | ⟨rfl, -⟩ <;> decide
      intro m
      constructor <;> intro h0 <;> apply hlast <;> rw [h0, String.toList_append, List.reverse_append] <;> rfl)
  have hrow : ∀ i, ∃ j : ℕ, i ≤ (C k).n → ((rowsOf (dynTable R) k T P).map Row.index)[i]? =
      some ((j % 8192 : ℕ) : ℝ) ∧ (∃ f, (visitsOf (cenv a T P) pairs)[j]? = some (k, f)) ∧
      (framesOf k ((visitsOf (cenv a T P) pairs).take j)).length = i := by
    intro i
    by_cases hi : i ≤ (C k).n
    · have hy : (rowsOf (dynTable R) k T P)[i]? = some ((rowsOf (dynTable R) k T P)[i]'(by omega)) :=
        List.getElem?_eq_getElem (by omega)
      obtain ⟨j, e1, ⟨d, e2⟩, e3⟩ := hpos i _ hy
      obtain ⟨p1, p2⟩ := position k R _ hall hvis j
      refine ⟨j, fun _ => ⟨?_, p2 _ _ e2, by rw [← p1, e3]⟩⟩
      rw [List.getElem?_map, hy]
      simp only [dynTable, List.getElem?_mapIdx, e2, Option.map_some, Option.some.injEq] at e1
      have := congrArg Row.index e1
      rw [Option.map_some]
      exact congrArg some this.symm
    · exact ⟨0, fun h => absurd h hi⟩
  choose j hj using hrow
  have hidx : (rowsOf (dynTable R) k T P).map Row.index =
      (List.range ((C k).n + 1)).map (fun i => ((j i % 8192 : ℕ) : ℝ)) := by
    apply List.ext_getElem?
    intro i
    by_cases hi : i ≤ (C k).n
    · rw [(hj i hi).1, List.getElem?_map, List.getElem?_range (by omega)]
      rfl
    · rw [List.getElem?_eq_none (by rw [List.length_map]; omega), List.getElem?_eq_none (by simp; omega)]
  refine ⟨j, rr, fun i hi => (hj i hi).2, ?_, h2⟩
  rw [hval, hidx] at h1
  unfold RelaxTime.computeRelaxationValue at h1
  rw [if_neg (by simp)] at h1
  rcases hq with ⟨rfl, rfl⟩ | ⟨rfl, rfl⟩
  · rwa [if_pos (by decide)] at h1
  · rwa [if_neg (by decide), if_pos (by decide)] at h1

theorem region_length {lo hi : ℝ} : ∀ {time : List ℝ} {v : List (Option ℝ)}, time.length = v.length →
    (RelaxTime.region lo hi time v).length = (v.filter (RelaxTime.between lo hi)).length
  | [], [], _ => rfl
  | t :: ts, x :: xs, h => by
    have ih := region_length (lo := lo) (hi := hi) (time := ts) (v := xs) (by simpa using h)
    unfold RelaxTime.region at ih ⊢
    cases x with
    | none => simpa [RelaxTime.between] using ih
    | some x =>
      by_cases hb : RelaxTime.between lo hi (some x) = true
      · simp only [List.zip_cons_cons, List.filterMap_cons, hb, if_true, List.length_cons, List.filter_cons]
        rw [ih]
      · simp only [List.zip_cons_cons, List.filterMap_cons, hb, List.filter_cons]
        simpa using ih

theorem three_length {n : ℕ} {x : ℕ → ℝ} (h : ThreeInside n x) :
    3 ≤ (((List.range (n + 1)).map (fun i => some (x i))).filter (RelaxTime.between 2 50)).length := by
  obtain ⟨i, j, k, hij, hjk, hk, h⟩ := h
  have hsub : List.Sublist [i, j, k] ((List.range (n + 1)).filter
      (RelaxTime.between 2 50 ∘ fun i => some (x i))) := by
    have h1 : List.Sublist [i, j, k] (List.range (n + 1)) := by
      have hp : [i, j, k].Pairwise (· < ·) := by
        simp only [List.pairwise_cons, List.mem_cons, List.not_mem_nil, or_false, forall_eq_or_imp, forall_eq]
        exact ⟨⟨hij, by omega⟩, hjk, by simp, by simp⟩
      apply List.sublist_of_subperm_of_pairwise (r := (· < ·)) ?_ hp List.pairwise_lt_range
      apply List.subperm_of_subset (hp.imp (fun h => Nat.ne_of_lt h))
      intro l hl
      simp only [List.mem_cons, List.not_mem_nil, or_false] at hl
      rw [List.mem_range]
      omega
    have h2 := h1.filter (RelaxTime.between 2 50 ∘ fun i => some (x i))
    rwa [List.filter_eq_self.2 (by
      intro l hl
      have := h l hl
      simp [RelaxTime.between, this.1, this.2])] at h2
  rw [List.filter_map, List.length_map]
  exact hsub.length_le

theorem mem_zip_range {n : ℕ} {τ : ℕ → ℝ} {y : ℕ → Option ℝ} {t : ℝ} {v : Option ℝ} :
    (t, v) ∈ ((List.range (n + 1)).map τ).zip ((List.range (n + 1)).map y) ↔ ∃ i ≤ n, t = τ i ∧ v = y i := by
  rw [List.zip_map', List.mem_map]
  constructor
  · rintro ⟨i, hi, he⟩
    obtain ⟨rfl, rfl⟩ := Prod.mk.inj he
    exact ⟨i, by have := List.mem_range.1 hi; omega, rfl, rfl⟩
  · rintro ⟨i, hi, rfl, rfl⟩
    exact ⟨i, List.mem_range.2 (by omega), rfl⟩

/-- `diffusion_constant` of values at the frames of a course. -/
theorem diffusion_frames {signals : Bool} {fit : List (ℝ × ℝ) → Except PyErr RelaxTime.Fit} (hfit : Solves fit)
    {n d : ℕ} (hd : 0 < d) {τ x : ℕ → ℝ} {D : ℝ} (hline : Diffuses n d τ x D) (hthree : ThreeInside n x)
    (htwo : ∃ i j, i ≤ n ∧ j ≤ n ∧ 2 < x i ∧ x i < 50 ∧ 2 < x j ∧ x j < 50 ∧ τ i ≠ τ j) {r : RelaxTime.Result}
    (h : RelaxTime.diffusionConstant signals fit ((List.range (n + 1)).map τ)
      ((List.range (n + 1)).map (fun i => some (x i))) d = .ok r) : r.mean = some D := by
  obtain ⟨b, hb⟩ := hline
  have h3 := three_length hthree
  have hl : ((List.range (n + 1)).map τ).length = ((List.range (n + 1)).map (fun i => some (x i))).length := by
    simp
  have hpts : ∀ p ∈ RelaxTime.region 2 50 ((List.range (n + 1)).map τ)
      ((List.range (n + 1)).map (fun i => some (x i))), p.2 = 2 * d * D * p.1 + b := by
    rintro ⟨t, y⟩ hp
    obtain ⟨hm, h1, h2⟩ := RelaxTime.mem_region.1 hp
    obtain ⟨i, hi, rfl, hy⟩ := mem_zip_range.1 hm
    obtain rfl := Option.some.inj hy
    exact hb i hi h1 h2
  obtain ⟨f, hf⟩ := hfit.returns _ _ _ (by rw [region_length hl]; exact h3) hpts
  obtain ⟨i, j, hi, hj, a1, a2, b1, b2, hne⟩ := htwo
  refine RelaxTime.C49_diffusion (b := b) hfit.least hl (by intro _ h; simp at h) hd ?_ h3
    ⟨τ i, x i, τ j, x j, mem_zip_range.2 ⟨i, hi, rfl, rfl⟩, mem_zip_range.2 ⟨j, hj, rfl, rfl⟩, a1, a2, b1, b2,
      hne⟩ hf h
  rintro t y hm h1 h2
  obtain ⟨i, hi, rfl, hy⟩ := mem_zip_range.1 hm
  obtain rfl := Option.some.inj hy
  exact hb i hi h1 h2

end Verif.Pipeline
