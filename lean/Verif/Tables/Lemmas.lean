import Mathlib.Algebra.Order.BigOperators.Group.List
import Mathlib.Tactic.Linarith
import Mathlib.Tactic.Ring
import Mathlib.Tactic.FieldSimp
import Mathlib.Tactic.Positivity
import Verif.Tables.Spec
/-!
# Lemmas for C52 – C54
-/

namespace Verif.Tables

theorem key_iff (r : Row) (k t p : ℝ) : r.key = some (k, t, p) ↔ r.Of k t p := by
  unfold Row.key Row.Of
  split
  · rename_i a b c h1 h2 h3
    simp [h1, h2, h3]
  · rename_i h
    simp only [reduceCtorEq, false_iff]
    rintro ⟨h1, h2, h3⟩
    exact h _ _ _ h1 h2 h3

theorem mem_keys {df : Table} {k : Key} : k ∈ df.keys ↔ ∃ r ∈ df.rows, r.key = some k := by
  unfold Table.keys
  rw [List.mem_dedup, List.mem_filterMap]

theorem nodup_keys (df : Table) : df.keys.Nodup := by
  unfold Table.keys
  exact List.nodup_dedup _

theorem mem_group {df : Table} {k : Key} {r : Row} :
    r ∈ df.group k ↔ r ∈ df.rows ∧ r.key = some k := by
  unfold Table.group
  rw [List.mem_filter, decide_eq_true_eq]

/-- A row after the sentinel has been replaced. -/
noncomputable def cleaned (r : Row) : Row :=
  open Classical in
  { r with val := fun c => if r.val c = some (2 ^ 32 - 1) then none else r.val c }

theorem replaceSentinel_rows (df : Table) : df.replaceSentinel.rows = df.rows.map cleaned := rfl

theorem cleaned_val {r : Row} {c : String} {x : ℝ} :
    (cleaned r).val c = some x ↔ r.val c = some x ∧ x ≠ 2 ^ 32 - 1 := by
  unfold cleaned
  simp only
  split
  · rename_i h
    rw [h]
    simp only [reduceCtorEq, Option.some.injEq, false_iff, not_and, not_not]
    exact fun h => h.symm
  · rename_i h
    constructor
    · intro hx
      refine ⟨hx, ?_⟩
      rintro rfl
      exact h hx
    · exact fun h => h.1

theorem cleaned_of {r : Row} {k t p : ℝ} (h : (cleaned r).Of k t p) : r.Of k t p :=
  ⟨(cleaned_val.1 h.1).1, (cleaned_val.1 h.2.1).1, (cleaned_val.1 h.2.2).1⟩

theorem complete_iff {df : Table} {k : Key} :
    df.complete k = true ↔ ∀ r ∈ df.rows, r.key = some k → ∀ c ∈ df.columns, ∃ x, r.val c = some x := by
  unfold Table.complete
  rw [List.all_eq_true]
  simp only [List.all_eq_true, mem_group, and_imp, Option.isSome_iff_exists]

theorem mem_keepComplete {df : Table} {r : Row} :
    r ∈ df.keepComplete.rows ↔ r ∈ df.rows ∧ ∃ k, r.key = some k ∧ df.complete k = true := by
  unfold Table.keepComplete
  simp only [List.mem_filter]
  refine and_congr_right fun _ => ?_
  split
  · rename_i k h
    simp [h]
  · rename_i h
    simp [h]

/-- The table that is aggregated. -/
noncomputable def prepared (df : Table) : Table := df.replaceSentinel.keepComplete

theorem prepared_columns (df : Table) : (prepared df).columns = df.columns := rfl

theorem cleaned_of_iff {df : Table} (hk : "keyframe" ∈ df.columns)
    (ht : "temperature" ∈ df.columns) (hp : "pressure" ∈ df.columns) {k t p : ℝ}
    (h : FullyRelaxed df k t p) {r : Row} (hr : r ∈ df.rows) :
    (cleaned r).Of k t p ↔ r.Of k t p := by
  refine ⟨cleaned_of, fun ho => ?_⟩
  have hx := h.2 r hr ho
  obtain ⟨x, h1, h1'⟩ := hx _ hk
  obtain ⟨y, h2, h2'⟩ := hx _ ht
  obtain ⟨z, h3, h3'⟩ := hx _ hp
  obtain ⟨o1, o2, o3⟩ := ho
  rw [o1] at h1; rw [o2] at h2; rw [o3] at h3
  obtain rfl := Option.some.inj h1
  obtain rfl := Option.some.inj h2
  obtain rfl := Option.some.inj h3
  exact ⟨cleaned_val.2 ⟨o1, h1'⟩, cleaned_val.2 ⟨o2, h2'⟩, cleaned_val.2 ⟨o3, h3'⟩⟩

/-- Whether a group is complete after the replacement. -/
theorem complete_cleaned {df : Table} {k t p : ℝ} (hk : "keyframe" ∈ df.columns)
    (ht : "temperature" ∈ df.columns) (hp : "pressure" ∈ df.columns) :
    ((∃ r ∈ df.rows, (cleaned r).Of k t p) ∧ df.replaceSentinel.complete (k, t, p) = true) ↔
      FullyRelaxed df k t p := by
  rw [complete_iff]
  constructor
  · rintro ⟨⟨r, hr, ho⟩, hc⟩
    refine ⟨⟨r, hr, cleaned_of ho⟩, ?_⟩
    intro s hs hso c hcol
    have hkey : (cleaned s).Of k t p := by
      obtain ⟨o1, o2, o3⟩ := hso
      obtain ⟨q1, q2, q3⟩ := ho
      exact ⟨cleaned_val.2 ⟨o1, (cleaned_val.1 q1).2⟩, cleaned_val.2 ⟨o2, (cleaned_val.1 q2).2⟩,
        cleaned_val.2 ⟨o3, (cleaned_val.1 q3).2⟩⟩
    obtain ⟨x, hx⟩ := hc (cleaned s) (by rw [replaceSentinel_rows]; exact List.mem_map_of_mem hs)
      ((key_iff _ _ _ _).2 hkey) c hcol
    exact ⟨x, cleaned_val.1 hx⟩
  · intro h
    obtain ⟨r, hr, ho⟩ := h.1
    refine ⟨⟨r, hr, (cleaned_of_iff hk ht hp h hr).2 ho⟩, ?_⟩
    intro s hs hkey c hcol
    rw [replaceSentinel_rows, List.mem_map] at hs
    obtain ⟨s, hs, rfl⟩ := hs
    obtain ⟨x, hx, hne⟩ := h.2 s hs (cleaned_of ((key_iff _ _ _ _).1 hkey)) c hcol
    exact ⟨x, cleaned_val.2 ⟨hx, hne⟩⟩

theorem keys_prepared {df : Table} (hk : "keyframe" ∈ df.columns)
    (ht : "temperature" ∈ df.columns) (hp : "pressure" ∈ df.columns) {k t p : ℝ} :
    (k, t, p) ∈ (prepared df).keys ↔ FullyRelaxed df k t p := by
  rw [mem_keys, ← complete_cleaned hk ht hp]
  unfold prepared
  constructor
  · rintro ⟨r, hr, hkey⟩
    obtain ⟨hr, k', hk', hc⟩ := mem_keepComplete.1 hr
    rw [hkey] at hk'
    obtain rfl := Option.some.inj hk'
    rw [replaceSentinel_rows, List.mem_map] at hr
    obtain ⟨s, hs, rfl⟩ := hr
    exact ⟨⟨s, hs, (key_iff _ _ _ _).1 hkey⟩, hc⟩
  · rintro ⟨⟨r, hr, ho⟩, hc⟩
    refine ⟨cleaned r, mem_keepComplete.2 ⟨?_, _, (key_iff _ _ _ _).2 ho, hc⟩,
      (key_iff _ _ _ _).2 ho⟩
    rw [replaceSentinel_rows]
    exact List.mem_map_of_mem hr

theorem filterMap_values {rows : List Row} {k t p : ℝ} {c : String} {q : Row → Bool}
    (hq : ∀ r ∈ rows, (cleaned r).Of k t p → q (cleaned r) = true)
    (ho : ∀ r ∈ rows, (cleaned r).Of k t p ↔ r.Of k t p)
    (hc : ∀ r ∈ rows, r.Of k t p → ∃ x, r.val c = some x ∧ x ≠ 2 ^ 32 - 1) :
    open Classical in
    (((rows.map cleaned).filter q).filter (fun r => decide (r.key = some (k, t, p)))).filterMap
      (fun r => r.val c) =
    (rows.filter (fun r => decide (r.Of k t p))).filterMap (fun r => r.val c) := by
  induction rows with
  | nil => rfl
  | cons r rows ih =>
    have ih := ih (fun s hs => hq s (List.mem_cons_of_mem _ hs))
      (fun s hs => ho s (List.mem_cons_of_mem _ hs)) (fun s hs => hc s (List.mem_cons_of_mem _ hs))
    have hq := hq r List.mem_cons_self
    have ho := ho r List.mem_cons_self
    have hc := hc r List.mem_cons_self
    by_cases h : r.Of k t p
    · have h' := ho.2 h
      obtain ⟨x, hx, hne⟩ := hc h
      have hx' := cleaned_val.2 ⟨hx, hne⟩
      have hk := (key_iff (cleaned r) k t p).2 h'
      rw [List.map_cons, List.filter_cons, if_pos (hq h'), List.filter_cons,
        if_pos (by simpa using hk), List.filterMap_cons, hx', List.filter_cons,
        if_pos (by simpa using h), List.filterMap_cons, hx]
      simp only
      rw [ih]
    · have hk : ¬ (cleaned r).key = some (k, t, p) := fun hk => h (ho.1 ((key_iff _ _ _ _).1 hk))
      rw [List.map_cons, List.filter_cons (xs := rows), if_neg (by simpa using h), ← ih,
        List.filter_cons]
      split
      · rw [List.filter_cons, if_neg (by simpa using hk)]
      · rfl

theorem values_prepared {df : Table} (hk : "keyframe" ∈ df.columns)
    (ht : "temperature" ∈ df.columns) (hp : "pressure" ∈ df.columns) {k t p : ℝ}
    (h : FullyRelaxed df k t p) {c : String} (hc : c ∈ df.columns) :
    (prepared df).values (k, t, p) c = times df k t p c := by
  refine filterMap_values (fun r hr ho => ?_) (fun r hr => cleaned_of_iff hk ht hp h hr)
    (fun r hr ho => h.2 r hr ho c hc)
  have hkey := (key_iff _ _ _ _).2 ho
  have hcomp := ((complete_cleaned hk ht hp).2 h).2
  rw [hkey]
  exact hcomp

theorem times_ne_nil {df : Table} {k t p : ℝ} (h : FullyRelaxed df k t p) {c : String}
    (hc : c ∈ df.columns) : times df k t p c ≠ [] := by
  obtain ⟨r, hr, ho⟩ := h.1
  obtain ⟨x, hx, -⟩ := h.2 r hr ho c hc
  apply List.ne_nil_of_mem (a := x)
  unfold times
  rw [List.mem_filterMap]
  exact ⟨r, by rw [List.mem_filter]; exact ⟨hr, by simpa using ho⟩, hx⟩

/-! ## Aggregation -/

theorem aggregateColumn_ok {hmean : List ℝ → Except PyErr ℝ} {df : Table} {c : String}
    {ks : List Key} {col : List (Key × ℝ × ℝ)} (h : aggregateColumn hmean df c ks = .ok col) :
    (∀ e ∈ col, e.2.1 = mean (df.values e.1 c) ∧ hmean (df.values e.1 c) = .ok e.2.2) ∧
      ∀ k ∈ ks, ∃ e ∈ col, e.1 = k := by
  induction ks generalizing col with
  | nil =>
    obtain rfl := (Except.ok.inj h).symm
    simp
  | cons k ks ih =>
    unfold aggregateColumn at h
    split at h
    · cases h
    · rename_i v hv
      split at h
      · cases h
      · rename_i l hl
        obtain rfl := (Except.ok.inj h).symm
        obtain ⟨h1, h2⟩ := ih hl
        constructor
        · intro e he
          rcases List.mem_cons.1 he with rfl | he
          · exact ⟨rfl, hv⟩
          · exact h1 e he
        · intro k' hk'
          rcases List.mem_cons.1 hk' with rfl | hk'
          · exact ⟨_, List.mem_cons_self, rfl⟩
          · obtain ⟨e, he, hee⟩ := h2 k' hk'
            exact ⟨e, List.mem_cons_of_mem _ he, hee⟩

theorem aggregateColumn_of {hmean : List ℝ → Except PyErr ℝ} {df : Table} {c : String}
    {ks : List Key} (h : ∀ k ∈ ks, ∃ v, hmean (df.values k c) = .ok v) :
    ∃ col, aggregateColumn hmean df c ks = .ok col := by
  induction ks with
  | nil => exact ⟨[], rfl⟩
  | cons k ks ih =>
    obtain ⟨v, hv⟩ := h k List.mem_cons_self
    obtain ⟨col, hcol⟩ := ih (fun k hk => h k (List.mem_cons_of_mem _ hk))
    unfold aggregateColumn
    rw [hv]
    simp only
    rw [hcol]
    exact ⟨_, rfl⟩

theorem aggregateColumn_error {hmean : List ℝ → Except PyErr ℝ} {df : Table} {c : String}
    {ks : List Key} {e : PyErr} (h : aggregateColumn hmean df c ks = .error e) :
    ∃ l, hmean l = .error e := by
  induction ks with
  | nil => cases h
  | cons k ks ih =>
    unfold aggregateColumn at h
    split at h
    · rename_i hv
      cases h
      exact ⟨_, hv⟩
    · split at h
      · rename_i hl
        cases h
        exact ih hl
      · cases h

theorem aggregate_ok {hmean : List ℝ → Except PyErr ℝ} {df : Table} {cs : List String}
    {cols : List (String × List (Key × ℝ × ℝ))} (h : aggregate hmean df cs = .ok cols) :
    (∀ c ∈ cols, c.1 ∈ cs ∧ aggregateColumn hmean df c.1 df.keys = .ok c.2) ∧
      ∀ c ∈ cs, ∀ col, aggregateColumn hmean df c df.keys = .ok col → (c, col) ∈ cols := by
  induction cs generalizing cols with
  | nil =>
    obtain rfl := (Except.ok.inj h).symm
    simp
  | cons c cs ih =>
    have skip : ∀ e, aggregateColumn hmean df c df.keys = .error e → aggregate hmean df cs = .ok cols →
        (∀ d ∈ cols, d.1 ∈ c :: cs ∧ aggregateColumn hmean df d.1 df.keys = .ok d.2) ∧
        ∀ d ∈ c :: cs, ∀ col, aggregateColumn hmean df d df.keys = .ok col → (d, col) ∈ cols := by
      intro e he h
      obtain ⟨h1, h2⟩ := ih h
      refine ⟨fun d hd => ⟨List.mem_cons_of_mem _ (h1 d hd).1, (h1 d hd).2⟩, ?_⟩
      intro d hd col hcol
      rcases List.mem_cons.1 hd with rfl | hd
      · rw [he] at hcol; cases hcol
      · exact h2 d hd col hcol
    unfold aggregate at h
    split at h
    · rename_i he; exact skip _ he h
    · rename_i he; exact skip _ he h
    · cases h
    · rename_i col hcol
      split at h
      · cases h
      · rename_i l hl
        obtain rfl := (Except.ok.inj h).symm
        obtain ⟨h1, h2⟩ := ih hl
        constructor
        · intro d hd
          rcases List.mem_cons.1 hd with rfl | hd
          · exact ⟨List.mem_cons_self, hcol⟩
          · exact ⟨List.mem_cons_of_mem _ (h1 d hd).1, (h1 d hd).2⟩
        · intro d hd col' hcol'
          rcases List.mem_cons.1 hd with rfl | hd
          · rw [hcol] at hcol'
            obtain rfl := Except.ok.inj hcol'
            exact List.mem_cons_self
          · exact List.mem_cons_of_mem _ (h2 d hd col' hcol')

theorem aggregate_of {hmean : List ℝ → Except PyErr ℝ} {df : Table}
    (he : ∀ l e, hmean l = .error e → e = .valueError ∨ e = .typeError) (cs : List String) :
    ∃ cols, aggregate hmean df cs = .ok cols := by
  induction cs with
  | nil => exact ⟨[], rfl⟩
  | cons c cs ih =>
    obtain ⟨cols, hcols⟩ := ih
    unfold aggregate
    split
    · exact ⟨_, hcols⟩
    · exact ⟨_, hcols⟩
    · rename_i e h1 h2 h3
      obtain ⟨l, hl⟩ := aggregateColumn_error h3
      rcases he l _ hl with rfl | rfl
      · exact absurd rfl h1
      · exact absurd rfl h2
    · rw [hcols]
      exact ⟨_, rfl⟩

/-- What the entries of one group are. -/
theorem mem_named {k : Key} {c : String} {col : List (Key × ℝ × ℝ)} {x : String × Option ℝ} {hmean}
    {df : Table} {ks : List Key} (hcol : aggregateColumn hmean df c ks = .ok col) (hk : k ∈ ks) :
    x ∈ named k (c, col) ↔ x = (c ++ "_mean", some (mean (df.values k c))) ∨
      ∃ h, hmean (df.values k c) = .ok h ∧ x = (c ++ "_hmean", some h) := by
  classical
  obtain ⟨h1, h2⟩ := aggregateColumn_ok hcol
  obtain ⟨e, he, hek⟩ := h2 k hk
  unfold named
  simp only
  split
  · rename_i e' he'
    have hk' : e'.1 = k := by simpa using List.find?_some he'
    obtain ⟨g1, g2⟩ := h1 e' (List.mem_of_find?_eq_some he')
    rw [hk'] at g1 g2
    simp only [List.mem_cons, List.not_mem_nil, or_false, g1, g2]
    constructor
    · rintro (rfl | rfl)
      · exact .inl rfl
      · exact .inr ⟨_, rfl, rfl⟩
    · rintro (rfl | ⟨h, hh, rfl⟩)
      · exact .inl rfl
      · rw [Except.ok.inj hh]; exact .inr rfl
  · rename_i hn
    rw [List.find?_eq_none] at hn
    exact absurd (by simpa using hek) (hn e he)

/-! ## The harmonic mean is not larger than the mean -/

theorem card_sq_le (l : List ℝ) (h : ∀ x ∈ l, 0 < x) :
    (l.length : ℝ) ^ 2 ≤ l.sum * (l.map (fun x => 1 / x)).sum := by
  induction l with
  | nil => simp
  | cons a l ih =>
    have ha := h a List.mem_cons_self
    have hl := fun x hx => h x (List.mem_cons_of_mem _ hx)
    have ih := ih hl
    have hs : 0 ≤ l.sum := List.sum_nonneg (fun x hx => (hl x hx).le)
    have hr : 0 ≤ (l.map (fun x => 1 / x)).sum := List.sum_nonneg (by
      intro y hy
      obtain ⟨x, hx, rfl⟩ := List.mem_map.1 hy
      have := hl x hx
      positivity)
    rw [List.map_cons, List.sum_cons, List.sum_cons, List.length_cons]
    push_cast
    generalize l.sum = S at *
    generalize (l.map (fun x => 1 / x)).sum = R at *
    generalize (l.length : ℝ) = n at *
    have h1 : (a + S) * (1 / a + R) = 1 + a * R + S / a + S * R := by field_simp; ring
    rw [h1]
    have h2 : 0 ≤ a * R := by positivity
    have h3 : 0 ≤ S / a := by positivity
    have h4 : (a * R) * (S / a) = S * R := by field_simp
    have : 2 * n ≤ a * R + S / a := by
      apply le_of_sq_le_sq
      · nlinarith [sq_nonneg (a * R - S / a)]
      · positivity
    linarith

theorem hmean_le_mean {l : List ℝ} (hne : l ≠ []) (h : ∀ x ∈ l, 0 < x) :
    (l.length : ℝ) / (l.map (fun x => 1 / x)).sum ≤ l.sum / l.length := by
  have hn : (0 : ℝ) < l.length := by exact_mod_cast List.length_pos_iff.2 hne
  have hr : 0 < (l.map (fun x => 1 / x)).sum := by
    apply List.sum_pos
    · intro y hy
      obtain ⟨x, hx, rfl⟩ := List.mem_map.1 hy
      have := h x hx
      positivity
    · simpa using hne
  rw [div_le_div_iff₀ hr hn]
  have := card_sq_le l h
  nlinarith

end Verif.Tables
