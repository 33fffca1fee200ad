import Mathlib.Data.List.Forall2
import Mathlib.Data.List.Induction
import Mathlib.Tactic.Linarith
import Mathlib.Tactic.Ring
import Mathlib.Tactic.FieldSimp
import Mathlib.Tactic.Positivity
import Verif.RelaxTime.Spec
/-!
# Lemmas on the relaxation times
-/

namespace Verif.RelaxTime

theorem pyAt_nat {α : Type} {l : List α} {i : ℕ} {x : α} (h : l[i]? = some x) :
    pyAt l (i : ℤ) = .ok x := by
  unfold pyAt
  have : ¬ ((i : ℤ) < 0) := by omega
  simp [this, h]

theorem pyAt_pred {α : Type} {l : List α} {i : ℕ} {x : α} (h : l[i]? = some x) :
    pyAt l (((i + 1 : ℕ) : ℤ) - 1) = .ok x := by
  have : (((i + 1 : ℕ) : ℤ) - 1) = i := by push_cast; ring
  rw [this]
  exact pyAt_nat h

theorem pyAt_succ {α : Type} {l : List α} {i : ℕ} {x : α} (h : l[i + 1]? = some x) :
    pyAt l ((i : ℤ) + 1) = .ok x := by
  have : ((i : ℤ) + 1) = ((i + 1 : ℕ) : ℤ) := by push_cast; ring
  rw [this]
  exact pyAt_nat h

theorem pyAt_last {α : Type} {l : List α} {x : α} (h : l.getLast? = some x) :
    pyAt l (((0 : ℕ) : ℤ) - 1) = .ok x := by
  have hl : l ≠ [] := by rintro rfl; simp at h
  have hpos := List.length_pos_iff.2 hl
  unfold pyAt
  have e : (((0 : ℕ) : ℤ) - 1 + (l.length : ℤ)).toNat = l.length - 1 := by omega
  have h1 : (((0 : ℕ) : ℤ) - 1) < 0 := by norm_num
  have h2 : (0 : ℤ) ≤ ((0 : ℕ) : ℤ) - 1 + (l.length : ℤ) := by omega
  rw [List.getLast?_eq_getElem?] at h
  simp only [h1, if_true, h2, e, h]

theorem beyond_iff (thr : ℝ) (decay : Bool) (v : Option ℝ) :
    (if decay then nanLt v thr else nanGt v thr) = true ↔ Beyond thr decay v := by
  cases v with
  | none => cases decay <;> simp [nanLt, nanGt, Beyond]
  | some x => cases decay <;> simp [nanLt, nanGt, Beyond]

/-- The flags of which `argmax` is taken. -/
noncomputable def flags (thr : ℝ) (decay : Bool) (value : List (Option ℝ)) : List Bool :=
  value.map (fun v => if decay then nanLt v thr else nanGt v thr)

theorem argmax_first {thr : ℝ} {decay : Bool} {value : List (Option ℝ)} {i : ℕ}
    (h : FirstBeyond thr decay value i) : argmaxBool (flags thr decay value) = .ok i := by
  obtain ⟨⟨v, hv, hb⟩, hfirst⟩ := h
  have hi : i < value.length := (List.getElem?_eq_some_iff.1 hv).1
  have hvi : value[i] = v := (List.getElem?_eq_some_iff.1 hv).2
  unfold argmaxBool
  have hlen : (flags thr decay value).length = value.length := by simp [flags]
  rw [if_neg (by omega), if_pos]
  · congr 1
    rw [List.findIdx_eq (by omega)]
    constructor
    · simp only [flags, List.getElem_map, id, hvi]
      exact (beyond_iff thr decay v).2 hb
    · intro j hj
      simp only [flags, List.getElem_map, id]
      have hjv : value[j]? = some (value[j]'(by omega)) := List.getElem?_eq_getElem (by omega)
      have := hfirst j hj _ hjv
      rw [← Bool.not_eq_true]
      intro hc
      exact this ((beyond_iff thr decay _).1 hc)
  · rw [flags, List.mem_map]
    exact ⟨v, List.mem_of_getElem? hv, (beyond_iff thr decay v).2 hb⟩

theorem argmax_none {thr : ℝ} {decay : Bool} {value : List (Option ℝ)} (hne : value ≠ [])
    (h : ∀ v ∈ value, ¬ Beyond thr decay v) : argmaxBool (flags thr decay value) = .ok 0 := by
  unfold argmaxBool
  have hlen : (flags thr decay value).length = value.length := by simp [flags]
  have := List.length_pos_iff.2 hne
  rw [if_neg (by omega), if_neg]
  rw [flags, List.mem_map]
  rintro ⟨v, hv, hb⟩
  exact h v hv ((beyond_iff thr decay v).1 hb)

theorem threshold_eq {signals : Bool} {time : List ℝ} {value : List (Option ℝ)} {thr : ℝ}
    {decay : Bool} (hs : signals = true → none ∉ value) :
    thresholdRelaxation signals time value thr decay =
      match argmaxBool (flags thr decay value) with
      | .error e => .error e
      | .ok index =>
        match pyAt time index with
        | .error e => .error e
        | .ok t =>
          match pyAt time ((index : ℤ) - 1) with
          | .error e => .error e
          | .ok t' => .ok ⟨some t, some (t - t')⟩ := by
  unfold thresholdRelaxation
  have : (signals && value.any Option.isNone) = false := by
    cases signals with
    | false => rfl
    | true =>
      simp only [Bool.true_and, List.any_eq_false]
      intro v hv
      cases v with
      | none => exact absurd hv (hs rfl)
      | some x => simp
  rw [this]
  rfl

/-! ## The maximum -/

theorem exists_firstMax {value : List (Option ℝ)} (h : ∃ y, some y ∈ value) :
    ∃ i x, FirstMax value i x := by
  induction value using List.reverseRecOn with
  | nil => simp at h
  | append_singleton l v ih =>
    by_cases hl : ∃ y, some y ∈ l
    · obtain ⟨i, x, hi, hmax, hfirst⟩ := ih hl
      have hil : i < l.length := (List.getElem?_eq_some_iff.1 hi).1
      cases v with
      | none =>
        refine ⟨i, x, by rw [List.getElem?_append_left hil]; exact hi, ?_, ?_⟩
        · intro y hy
          exact hmax y (by simpa using hy)
        · intro j hj y hy
          rw [List.getElem?_append_left (by omega)] at hy
          exact hfirst j hj y hy
      | some w =>
        by_cases hw : x < w
        · refine ⟨l.length, w, by simp, ?_, ?_⟩
          · intro y hy
            rcases List.mem_append.1 hy with hy | hy
            · exact (hmax y hy).trans hw.le
            · simp at hy; rw [hy]
          · intro j hj y hy
            rw [List.getElem?_append_left hj] at hy
            exact lt_of_le_of_lt (hmax y (List.mem_of_getElem? hy)) hw
        · refine ⟨i, x, by rw [List.getElem?_append_left hil]; exact hi, ?_, ?_⟩
          · intro y hy
            rcases List.mem_append.1 hy with hy | hy
            · exact hmax y hy
            · simp at hy; rw [hy]; exact not_lt.1 hw
          · intro j hj y hy
            rw [List.getElem?_append_left (by omega)] at hy
            exact hfirst j hj y hy
    · obtain ⟨y, hy⟩ := h
      rcases List.mem_append.1 hy with hy | hy
      · exact absurd ⟨y, hy⟩ hl
      · simp at hy
        subst hy
        refine ⟨l.length, y, by simp, ?_, ?_⟩
        · intro z hz
          rcases List.mem_append.1 hz with hz | hz
          · exact absurd ⟨z, hz⟩ hl
          · simp at hz; rw [hz]
        · intro j hj z hz
          rw [List.getElem?_append_left hj] at hz
          exact absurd ⟨z, List.mem_of_getElem? hz⟩ hl

theorem nanargmax_firstMax {value : List (Option ℝ)} {i : ℕ} {x : ℝ} (h : FirstMax value i x) :
    nanargmax value = .ok i := by
  obtain ⟨hi, hmax, hfirst⟩ := h
  have hil : i < value.length := (List.getElem?_eq_some_iff.1 hi).1
  have hiv : value[i] = some x := (List.getElem?_eq_some_iff.1 hi).2
  unfold nanargmax
  have : value.findIdx? (isMax value) = some i := by
    rw [List.findIdx?_eq_some_iff_getElem]
    refine ⟨hil, ?_, ?_⟩
    · simp only [hiv, isMax, decide_eq_true_eq]
      exact hmax
    · intro j hj
      cases hjv : value[j]'(by omega) with
      | none => simp [isMax]
      | some y =>
        have hj' : value[j]? = some (some y) := by
          rw [← hjv]; exact List.getElem?_eq_getElem (by omega)
        have hlt := hfirst j hj y hj'
        simp only [isMax, decide_eq_true_eq]
        intro hall
        have := hall x (List.mem_of_getElem? hi)
        linarith
  rw [this]

theorem nanargmax_none {value : List (Option ℝ)} (h : ∀ y, some y ∉ value) :
    nanargmax value = .error .valueError := by
  unfold nanargmax
  have : value.findIdx? (isMax value) = none := by
    rw [List.findIdx?_eq_none_iff]
    intro v hv
    cases v with
    | none => rfl
    | some x => exact absurd hv (h x)
  rw [this]

end Verif.RelaxTime
