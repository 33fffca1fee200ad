import Verif.Pipeline.ChainMsdProps
import Verif.Pipeline.ChainMaxProps
import Verif.Pipeline.ChainLocalSpec
/-!
# Lemmas for C139
-/

namespace Verif.Pipeline

open Verif.Motion Verif.Dynamics Verif.Relax Verif.Gsd Verif.Process Verif.Cache Verif.Tables

variable {N : ℕ}

theorem firstBeyond_unique {n : ℕ} {time : ℕ → ℤ} {x : ℕ → ℝ} {thr : ℝ} {v v' : ℤ}
    (h : FirstBeyond n time x thr v) (h' : FirstBeyond n time x thr v') : v = v' := IsLeast.unique h h'

theorem lastLeft_unique {n : ℕ} {time : ℕ → ℤ} {x : ℕ → ℝ} {thr cut : ℝ} {v v' : ℤ}
    (h : LastLeft n time x thr cut v) (h' : LastLeft n time x thr cut v') : v = v' := by
  rcases h with ⟨h, rfl⟩ | ⟨i, j, hi, h1, h2, hj, h3, h4, h5, rfl⟩ <;>
    rcases h' with ⟨h', rfl⟩ | ⟨i', j', hi', h1', h2', hj', h3', h4', h5', rfl⟩
  · rfl
  · exact absurd (h i' hi') (not_le.2 h1')
  · exact absurd (h' i hi) (not_le.2 h1)
  · obtain rfl : i = i' := by
      rcases Nat.lt_trichotomy i i' with h | h | h
      · exact absurd (h2' i h) (not_le.2 h1)
      · exact h
      · exact absurd (h2 i' h) (not_le.2 h1')
    rcases Nat.lt_trichotomy j j' with h | rfl | h
    · obtain ⟨l, e1, e2, e3⟩ := h5' j h h3
      exact absurd (h4 l e1 (by omega)) (not_le.2 e3)
    · rfl
    · obtain ⟨l, e1, e2, e3⟩ := h5 j' h h3'
      exact absurd (h4' l e1 (by omega)) (not_le.2 e3)

/-- The relaxation times of molecules are determined by their course. -/
theorem TrueTimes.unique {C : Course N} {τ τ' : String → Fin N → ℤ} (h : TrueTimes C τ) (h' : TrueTimes C τ')
    {name : String} (hname : name ∈ tauNames) (m : Fin N) : τ name m = τ' name m := by
  simp only [tauNames, List.mem_cons, List.not_mem_nil, or_false] at hname
  rcases hname with rfl | rfl | rfl | rfl | rfl | rfl
  · exact firstBeyond_unique (h.D m) (h'.D m)
  · exact firstBeyond_unique (h.F m) (h'.F m)
  · exact lastLeft_unique (h.L m) (h'.L m)
  · exact firstBeyond_unique (h.T2 m) (h'.T2 m)
  · exact firstBeyond_unique (h.T3 m) (h'.T3 m)
  · exact firstBeyond_unique (h.T4 m) (h'.T4 m)

open Classical in
theorem framesOf_take_succ {Φ : Type} (k : ℕ) (L : List (ℕ × Φ)) (j : ℕ) :
    (framesOf k (L.take (j + 1))).length =
      (framesOf k (L.take j)).length + (if ∃ f, L[j]? = some (k, f) then 1 else 0) := by
  rw [List.take_add_one]
  unfold framesOf
  rw [List.filterMap_append, List.length_append]
  congr 1
  cases hj : L[j]? with
  | none => simp
  | some v =>
    obtain ⟨k', f⟩ := v
    by_cases h : k' = k <;> simp [h]

theorem framesOf_take_mono {Φ : Type} (k : ℕ) (L : List (ℕ × Φ)) {j j' : ℕ} (h : j ≤ j') :
    (framesOf k (L.take j)).length ≤ (framesOf k (L.take j')).length := by
  induction h with
  | refl => exact le_rfl
  | step _ ih => rw [Nat.succ_eq_add_one, framesOf_take_succ]; omega

/-- The frame number determines the position. -/
theorem position_unique {Φ : Type} {k : ℕ} {L L' : List (ℕ × Φ)}
    (hL : ∀ j : ℕ, (∃ f, L[j]? = some (k, f)) ↔ ∃ f, L'[j]? = some (k, f)) {j j' : ℕ}
    (hj : ∃ f, L[j]? = some (k, f)) (hj' : ∃ f, L'[j']? = some (k, f))
    (h : (framesOf k (L.take j)).length = (framesOf k (L'.take j')).length) : j = j' := by
  have hcount : ∀ j, (framesOf k (L.take j)).length = (framesOf k (L'.take j)).length := by
    intro j
    induction j with
    | zero => simp
    | succ j ih =>
      rw [framesOf_take_succ, framesOf_take_succ, ih]
      by_cases h : ∃ f, L[j]? = some (k, f)
      · rw [if_pos h, if_pos ((hL j).1 h)]
      · rw [if_neg h, if_neg (fun h' => h ((hL j).2 h'))]
  rw [hcount] at h
  have hj2 := (hL j).1 hj
  rcases Nat.lt_trichotomy j j' with hlt | he | hlt
  · have h1 := framesOf_take_succ k L' j
    rw [if_pos hj2] at h1
    have := framesOf_take_mono k L' (show j + 1 ≤ j' by omega)
    omega
  · exact he
  · have h1 := framesOf_take_succ k L' j'
    rw [if_pos hj'] at h1
    have := framesOf_take_mono k L' (show j' + 1 ≤ j by omega)
    omega

/-- The values of such a quantity in a keyframe's rows. -/
theorem follow_rows (hN : 10 ≤ N) {a : Args} (hmol : a.mol.positions ≠ [])
    (hdef : a.relaxations = none) {T P : ℝ}
    {pairs : List (List ℕ × GFrame PData)} {ending : Option PyErr} {file file' : File FRec}
    {out : Option (List FRec)}
    (hrun : processFile (cenv a T P) (some (pairs, ending)) true file = (file', .ok out)) {k : ℕ}
    {C : Course N} (hC : C.Of a (framesOf k (visitsOf (cenv a T P) pairs))) {q : Quantity} {y : ℕ → Option ℝ}
    (hy : C.Follow a q y) :
    (∀ d ∈ (rows file' "dynamics").filterMap (dynOf k), ∃ v, Dict.get? d q = some v) ∧
    ((rows file' "dynamics").filterMap (dynOf k)).map (fun d => (Dict.get? d q).bind number) =
      (List.range (C.n + 1)).map y := by
  have some_rows : ∀ x : ℕ → ℝ, (∀ i, y i = some (x i)) →
      ((rows file' "dynamics").filterMap (dynOf k)).map (fun d => (Dict.get? d q).bind number) =
        (List.range (C.n + 1)).map (fun i => some (x i)) →
      (∀ d ∈ (rows file' "dynamics").filterMap (dynOf k), ∃ v, Dict.get? d q = some v) ∧
      ((rows file' "dynamics").filterMap (dynOf k)).map (fun d => (Dict.get? d q).bind number) =
        (List.range (C.n + 1)).map y := by
    intro x hx h
    obtain rfl : y = fun i => some (x i) := funext hx
    refine ⟨fun d hd => ?_, h⟩
    have h1 : (Dict.get? d q).bind number ∈ (List.range (C.n + 1)).map (fun i => some (x i)) := by
      rw [← h]; exact List.mem_map_of_mem hd
    obtain ⟨i, -, hi⟩ := List.mem_map.1 h1
    cases hg : Dict.get? d q with
    | some v => exact ⟨v, rfl⟩
    | none => rw [hg] at hi; simp at hi
  rcases hy with ⟨x, hx, he⟩ | ⟨d, x, hx, he⟩ | hy
  · exact some_rows x he (decay_rows hN hmol hdef hrun hC hx)
  · exact some_rows x he (spread_rows hN hmol hdef hrun hC hx)
  · exact peaked_rows hN hmol hdef hrun hC hy

theorem follow_other {a : Args} {C C' : Course N} {f' : List (GFrame PData)} (hC' : C'.Of a f') {q : Quantity}
    {y : ℕ → Option ℝ} (hy : C.Follow a q y) : ∃ y', C'.Follow a q y' := by
  rcases hy with ⟨x, hx, -⟩ | ⟨d, x, hx, -⟩ | hy
  · obtain ⟨x', hx'⟩ := decay_other hC' hx
    exact ⟨_, Or.inl ⟨x', hx', fun _ => rfl⟩⟩
  · obtain ⟨x', hx'⟩ := spread_other (C' := C') hx
    exact ⟨_, Or.inr (Or.inl ⟨d, x', hx', fun _ => rfl⟩)⟩
  · obtain ⟨y', hy'⟩ := peaked_other (C' := C') hy
    exact ⟨_, Or.inr (Or.inr hy')⟩

theorem follow_name {a : Args} {C : Course N} {q : Quantity} {y : ℕ → Option ℝ} (hy : C.Follow a q y) :
    quantityName q ∉ ["mean_displacement", "mean_rotation", "mfd", "overlap"] ∧
    (quantityName q).toList.reverse.take 2 ≠ ['n', 'a'] := by
  rcases hy with ⟨x, hx, -⟩ | ⟨d, x, hx, -⟩ | hy
  · rcases hx with ⟨rfl, _⟩ | ⟨rfl, _⟩ | ⟨rfl, _⟩ | ⟨rfl, _⟩ <;> constructor <;> decide
  · rcases hx with ⟨rfl, _⟩ | ⟨rfl, _⟩ <;> constructor <;> decide
  · rcases hy with ⟨rfl, _⟩ | ⟨rfl, _⟩ <;> constructor <;> decide

/-- Later frames of a trajectory are a trajectory. -/
theorem follows_shift {c : Cell} {n : ℕ} {u s : ℕ → Fin N → V3} {θ σ : ℕ → Fin N → ℝ}
    {o : ℕ → Option (Fin N → Quat)} (h : Follows c (n + 1) u s θ σ o) :
    Follows c n (fun i => u (i + 1)) (fun i => s (i + 1)) (fun i => θ (i + 1)) (fun i => σ (i + 1))
      (fun i => o (i + 1)) where
  cell := h.cell
  image := fun i hi m => h.image (i + 1) (by omega) m
  stepT := fun i hi m => h.stepT (i + 1) (by omega) m
  sign := fun i m => h.sign (i + 1) m
  orient := fun i => h.orient (i + 1)
  stepR := fun i hi m => h.stepR (i + 1) (by omega) m

end Verif.Pipeline
