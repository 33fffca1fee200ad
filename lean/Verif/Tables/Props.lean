import Mathlib.Data.List.Forall2
import Mathlib.Tactic.NormNum
import Mathlib.Analysis.Complex.ExponentialBounds
import Verif.Tables.JoinLemmas
/-!
# C52 – C54: the summary tables
-/

namespace Verif.Tables

open Verif.RelaxTime

/-- The three columns the code asks for. -/
def HasKeys (df : Table) : Prop :=
  "keyframe" ∈ df.columns ∧ "temperature" ∈ df.columns ∧ "pressure" ∈ df.columns

theorem molecular_eq {hmean : List ℝ → Except PyErr ℝ} {df : Table} {out : List Summary}
    (h : computeMolecularRelaxations hmean df = .ok out) :
    HasKeys df ∧ ∃ cols, aggregate hmean (prepared df) (prepared df).dataColumns = .ok cols ∧
      out = (prepared df).keys.map (fun k => ⟨k, cols.flatMap (named k)⟩) := by
  unfold computeMolecularRelaxations at h
  split at h
  · cases h
  split at h
  · cases h
  split at h
  · cases h
  rename_i ht hp hk
  rw [not_not] at ht hp hk
  refine ⟨⟨hk, ht, hp⟩, ?_⟩
  simp only at h
  split at h
  · cases h
  · cases h
  · rename_i cols _ hcols
    exact ⟨cols, hcols, (Except.ok.inj h).symm⟩

theorem mem_dataColumns {df : Table} {c : String} :
    c ∈ df.dataColumns ↔ c ∈ df.columns ∧ c ∉ keyColumns := by
  unfold Table.dataColumns
  rw [List.mem_filter]
  simp

/-! ## C52 -/

/-- **C52**, which keyframes: one row for each fully relaxed one, and no others. -/
theorem C52_rows {hmean : List ℝ → Except PyErr ℝ} {df : Table} {out : List Summary}
    (h : computeMolecularRelaxations hmean df = .ok out) :
    (out.map Summary.key).Nodup ∧
      ∀ k t p, (k, t, p) ∈ out.map Summary.key ↔ FullyRelaxed df k t p := by
  obtain ⟨⟨hk, ht, hp⟩, cols, -, rfl⟩ := molecular_eq h
  have : ((prepared df).keys.map (fun k => (⟨k, cols.flatMap (named k)⟩ : Summary))).map Summary.key
      = (prepared df).keys := by
    rw [List.map_map]
    exact List.map_id _
  rw [this]
  exact ⟨nodup_keys _, fun k t p => keys_prepared hk ht hp⟩

/-- **C52**, what is in a row: for every column of relaxation times that are positive in all
summarised keyframes their mean and their harmonic mean, and the second is at most the first. -/
theorem C52_values {hmean : List ℝ → Except PyErr ℝ} (hh : IsHarmonicMean hmean) {df : Table}
    {out : List Summary} (h : computeMolecularRelaxations hmean df = .ok out) {s : Summary}
    (hs : s ∈ out) {k t p : ℝ} (hkey : s.key = (k, t, p)) {c : String} (hc : c ∈ df.columns)
    (hc' : c ∉ ["keyframe", "temperature", "pressure"])
    (hpos : ∀ k t p, FullyRelaxed df k t p → ∀ x ∈ times df k t p c, 0 < x) :
    ∃ m hm : ℝ, (c ++ "_mean", some m) ∈ s.vals ∧ (c ++ "_hmean", some hm) ∈ s.vals ∧
      m = (times df k t p c).sum / (times df k t p c).length ∧
      hm = (times df k t p c).length / ((times df k t p c).map (fun x => 1 / x)).sum ∧ hm ≤ m := by
  have hrel : FullyRelaxed df k t p :=
    ((C52_rows h).2 k t p).1 (by rw [← hkey]; exact List.mem_map_of_mem hs)
  obtain ⟨⟨hk, ht, hp⟩, cols, hcols, rfl⟩ := molecular_eq h
  obtain ⟨key, hkeymem, rfl⟩ := List.mem_map.1 hs
  simp only at hkey
  subst hkey
  have hval : ∀ key ∈ (prepared df).keys, ∃ v, hmean ((prepared df).values key c) = .ok v := by
    rintro ⟨k, t, p⟩ hm
    have hr := (keys_prepared hk ht hp).1 hm
    rw [values_prepared hk ht hp hr hc]
    exact ⟨_, hh _ (times_ne_nil hr hc) (hpos k t p hr)⟩
  obtain ⟨col, hcol⟩ := aggregateColumn_of hval
  have hmem := (aggregate_ok hcols).2 c (mem_dataColumns.2 ⟨hc, hc'⟩) col hcol
  have hv := values_prepared hk ht hp hrel hc
  have hharm := hh _ (times_ne_nil hrel hc) (hpos k t p hrel)
  refine ⟨mean (times df k t p c), _, ?_, ?_, rfl, rfl, ?_⟩
  · simp only
    refine List.mem_flatMap.2 ⟨(c, col), hmem, ?_⟩
    rw [mem_named hcol hkeymem, hv]
    exact .inl rfl
  · simp only
    refine List.mem_flatMap.2 ⟨(c, col), hmem, ?_⟩
    rw [mem_named hcol hkeymem, hv]
    exact .inr ⟨_, hharm, rfl⟩
  · exact hmean_le_mean (times_ne_nil hrel hc) (hpos k t p hrel)

/-- **C52**, nothing else is in a row. -/
theorem C52_only {hmean : List ℝ → Except PyErr ℝ} {df : Table}
    {out : List Summary} (h : computeMolecularRelaxations hmean df = .ok out) {s : Summary}
    (hs : s ∈ out) {k t p : ℝ} (hkey : s.key = (k, t, p)) {name : String} {v : Option ℝ}
    (hv : (name, v) ∈ s.vals) :
    ∃ c ∈ df.columns, c ∉ ["keyframe", "temperature", "pressure"] ∧
      ((name = c ++ "_mean" ∧ v = some ((times df k t p c).sum / (times df k t p c).length)) ∨
       (name = c ++ "_hmean" ∧ ∃ x, hmean (times df k t p c) = .ok x ∧ v = some x)) := by
  have hrel : FullyRelaxed df k t p :=
    ((C52_rows h).2 k t p).1 (by rw [← hkey]; exact List.mem_map_of_mem hs)
  obtain ⟨⟨hk, ht, hp⟩, cols, hcols, rfl⟩ := molecular_eq h
  obtain ⟨key, hkeymem, rfl⟩ := List.mem_map.1 hs
  simp only at hkey
  subst hkey
  obtain ⟨⟨c, col⟩, hmem, hn⟩ := List.mem_flatMap.1 hv
  obtain ⟨hc, hcol⟩ := (aggregate_ok hcols).1 _ hmem
  obtain ⟨hc, hc'⟩ := mem_dataColumns.1 hc
  refine ⟨c, hc, hc', ?_⟩
  rw [mem_named hcol hkeymem, values_prepared hk ht hp hrel hc] at hn
  rcases hn with hn | ⟨x, hx, hn⟩
  · obtain ⟨rfl, rfl⟩ := Prod.mk.inj hn
    exact .inl ⟨rfl, rfl⟩
  · obtain ⟨rfl, rfl⟩ := Prod.mk.inj hn
    exact .inr ⟨rfl, x, hx, rfl⟩

/-- **C52**, it succeeds when there is a column of positive times, and `hmean` raises nothing but
ValueError; without one of the three key columns it is a ValueError. -/
theorem C52_succeeds {hmean : List ℝ → Except PyErr ℝ} (hh : IsHarmonicMean hmean) (df : Table) :
    ((∀ l e, hmean l = .error e → e = .valueError) → HasKeys df →
      (∃ c ∈ df.columns, c ∉ ["keyframe", "temperature", "pressure"] ∧
        ∀ k t p, FullyRelaxed df k t p → ∀ x ∈ times df k t p c, 0 < x) →
      ∃ out, computeMolecularRelaxations hmean df = .ok out) ∧
    (¬ HasKeys df → computeMolecularRelaxations hmean df = .error .valueError) := by
  constructor
  · rintro he ⟨hk, ht, hp⟩ ⟨c, hc, hc', hpos⟩
    unfold computeMolecularRelaxations
    rw [if_neg (not_not.2 ht), if_neg (not_not.2 hp), if_neg (not_not.2 hk)]
    obtain ⟨cols, hcols⟩ := aggregate_of (df := prepared df)
      (fun l e h => .inl (he l e h)) (prepared df).dataColumns
    have hval : ∀ key ∈ (prepared df).keys, ∃ v, hmean ((prepared df).values key c) = .ok v := by
      rintro ⟨k, t, p⟩ hm
      have hr := (keys_prepared hk ht hp).1 hm
      rw [values_prepared hk ht hp hr hc]
      exact ⟨_, hh _ (times_ne_nil hr hc) (hpos k t p hr)⟩
    obtain ⟨col, hcol⟩ := aggregateColumn_of hval
    have hmem := (aggregate_ok hcols).2 c (mem_dataColumns.2 ⟨hc, hc'⟩) col hcol
    change aggregate hmean df.replaceSentinel.keepComplete
      df.replaceSentinel.keepComplete.dataColumns = _ at hcols
    simp only
    rw [hcols]
    cases cols with
    | nil => cases hmem
    | cons a l => exact ⟨_, rfl⟩
  · intro h
    unfold computeMolecularRelaxations
    split
    · rfl
    split
    · rfl
    split
    · rfl
    rename_i h1 h2 h3
    exact absurd ⟨not_not.1 h3, not_not.1 h1, not_not.1 h2⟩ h

/-- A row given by its entries; NaN elsewhere. -/
def mkRow (i : ℝ) (d : Dict String ℝ) : Row := ⟨i, fun c => Dict.get? d c⟩

/-- Two keyframes of two molecules each; in the second one molecule has not relaxed. -/
noncomputable def exampleTable : Table :=
  ⟨["keyframe", "molecule", "tau_F", "temperature", "pressure"],
   [mkRow 0 [("keyframe", 0), ("molecule", 0), ("tau_F", 10), ("temperature", 1), ("pressure", 2)],
    mkRow 1 [("keyframe", 0), ("molecule", 1), ("tau_F", 30), ("temperature", 1), ("pressure", 2)],
    mkRow 2 [("keyframe", 1), ("molecule", 0), ("tau_F", 2 ^ 32 - 1), ("temperature", 1),
      ("pressure", 2)],
    mkRow 3 [("keyframe", 1), ("molecule", 1), ("tau_F", 5), ("temperature", 1), ("pressure", 2)]]⟩

example : HasKeys exampleTable ∧ FullyRelaxed exampleTable 0 1 2 ∧
    ¬ FullyRelaxed exampleTable 1 1 2 := by
  refine ⟨by simp [HasKeys, exampleTable], ⟨⟨_, List.mem_cons_self, rfl, rfl, rfl⟩, ?_⟩, ?_⟩
  · intro r hr ho c hc
    simp only [exampleTable, List.mem_cons, List.not_mem_nil, or_false] at hr hc
    rcases hr with rfl | rfl | rfl | rfl
    · rcases hc with rfl | rfl | rfl | rfl | rfl <;>
        exact ⟨_, rfl, by norm_num⟩
    · rcases hc with rfl | rfl | rfl | rfl | rfl <;>
        exact ⟨_, rfl, by norm_num⟩
    · exact absurd (Option.some.inj ho.1) (by norm_num)
    · exact absurd (Option.some.inj ho.1) (by norm_num)
  · intro h
    obtain ⟨x, hx, hne⟩ := h.2 (mkRow 2 [("keyframe", 1), ("molecule", 0), ("tau_F", 2 ^ 32 - 1),
      ("temperature", 1), ("pressure", 2)]) (by simp [exampleTable]) ⟨rfl, rfl, rfl⟩ "tau_F"
      (by simp [exampleTable])
    exact hne (Option.some.inj hx).symm

/-! ## C53 -/

open Classical in
/-- The rows of one keyframe. -/
noncomputable def rowsOf (df : Table) (k t p : ℝ) : List Row :=
  df.rows.filter (fun r => decide (r.Of k t p))

theorem group_eq (df : Table) (k t p : ℝ) : df.group (k, t, p) = rowsOf df k t p := by
  unfold Table.group rowsOf
  apply List.filter_congr
  intro r _
  exact decide_eq_decide.2 (key_iff r k t p)

theorem get?_append (d d' : Dict String (Option ℝ)) (c : String) (h : ∀ v, (c, v) ∉ d) :
    Dict.get? (d ++ d') c = Dict.get? d' c := by
  induction d with
  | nil => rfl
  | cons a d ih =>
    obtain ⟨n, v⟩ := a
    rw [List.cons_append]
    have hne : n ≠ c := by rintro rfl; exact h v List.mem_cons_self
    simp only [Dict.get?, if_neg hne]
    exact ih (fun v hv => h v (List.mem_cons_of_mem _ hv))

theorem computeRelaxations_eq {signals : Bool} {fit : List (ℝ × ℝ) → Except PyErr Fit}
    {hmean : List ℝ → Except PyErr ℝ} {src : Store} {out : List Summary}
    (h : computeRelaxations signals fit hmean src = .ok out) :
    ∃ dyn mol m cols, src.dynamics = some dyn ∧ src.molecular = some mol ∧
      computeMolecularRelaxations hmean mol = .ok m ∧
      relaxationColumns signals fit dyn.dropExtra dyn.dropExtra.dataColumns = .ok cols ∧
      out = join m cols := by
  unfold computeRelaxations at h
  split at h
  · cases h
  split at h
  · cases h
  split at h
  · cases h
  rename_i dyn hd _ mol hm
  simp only at h
  split at h
  · cases h
  split at h
  · cases h
  rename_i cols hcols _ m hmm
  exact ⟨dyn, mol, m, cols, hd, hm, hmm, hcols, (Except.ok.inj h).symm⟩

theorem get?_columns {signals : Bool} {fit : List (ℝ × ℝ) → Except PyErr Fit} {df : Table}
    {cs : List String} {cols : List (String × List (Key × Option ℝ))}
    (h : List.Forall₂ (fun c col => col.1 = c ∧
      relaxationColumn signals fit df c df.keys = .ok col.2) cs cols) (k : Key) {c : String}
    (hc : c ∈ cs) :
    ∃ col, relaxationColumn signals fit df c df.keys = .ok col ∧
      Dict.get? (cols.map (joined k)) c = some (joined k (c, col)).2 := by
  induction h with
  | nil => cases hc
  | @cons d col ds cols hd hrest ih =>
    obtain ⟨rfl, hcol⟩ := hd
    have e := joined_eq hcol k
    have e1 : (joined k col).1 = col.1 := by
      have := congrArg Prod.fst e
      exact this
    have e2 : joined k col = (col.1, (joined k col).2) := Prod.ext e1 rfl
    by_cases hdc : col.1 = c
    · subst hdc
      refine ⟨col.2, hcol, ?_⟩
      rw [List.map_cons, e2]
      simp [Dict.get?]
    · rcases List.mem_cons.1 hc with rfl | hc
      · exact absurd rfl hdc
      · obtain ⟨col', h1, h2⟩ := ih hc
        refine ⟨col', h1, ?_⟩
        rw [List.map_cons, e2]
        simp only [Dict.get?, if_neg hdc]
        exact h2

/-- **C53**, partial: exactly what is computed.  The value of a quantity for a keyframe comes from the
rows of that keyframe, but with the *row index* in place of the time; so it is the one the property
asks for when index and time agree.  Missing: `C53_refuted`. -/
theorem C53_index_partial {signals : Bool} {fit : List (ℝ × ℝ) → Except PyErr Fit}
    {hmean : List ℝ → Except PyErr ℝ} {src : Store} {out : List Summary} {dyn mol : Table}
    (h : computeRelaxations signals fit hmean src = .ok out) (hd : src.dynamics = some dyn)
    (hm : src.molecular = some mol) {s : Summary} (hs : s ∈ out) {k t p : ℝ}
    (hkey : s.key = (k, t, p)) (hrows : rowsOf dyn k t p ≠ []) {c : String} (hc : c ∈ dyn.columns)
    (hc' : c ∉ ["keyframe", "temperature", "pressure"])
    (hc'' : c ∉ ["mean_displacement", "mean_rotation", "mfd", "overlap"])
    (hname : ∀ m, c ≠ m ++ "_mean" ∧ c ≠ m ++ "_hmean") :
    ∃ r, computeRelaxationValue signals fit ((rowsOf dyn k t p).map Row.index)
        ((rowsOf dyn k t p).map (fun r => r.val c)) c = .ok r ∧
      Dict.get? s.vals c = some r.mean ∧
      ((∀ r ∈ dyn.rows, r.val "time" = some r.index) →
        ∃ r', computeRelaxationValue signals fit ((rowsOf dyn k t p).filterMap (fun r => r.val "time"))
          ((rowsOf dyn k t p).map (fun r => r.val c)) c = .ok r' ∧
          Dict.get? s.vals c = some r'.mean) := by
  obtain ⟨dyn', mol', m, cols, hd', hm', hmm, hcols, rfl⟩ := computeRelaxations_eq h
  rw [hd] at hd'
  rw [hm] at hm'
  obtain rfl := Option.some.inj hd'
  obtain rfl := Option.some.inj hm'
  obtain ⟨s, hsm, rfl⟩ := List.mem_map.1 hs
  simp only at hkey
  have hnot : ∀ v, (c, v) ∉ s.vals := by
    intro v hv
    obtain ⟨m, -, -, hmm⟩ := C52_only hmm hsm hkey hv
    rcases hmm with hmm | hmm
    · exact (hname m).1 hmm.1
    · exact (hname m).2 hmm.1
  have hcd : c ∈ dyn.dropExtra.dataColumns := by
    rw [mem_dataColumns]
    refine ⟨?_, hc'⟩
    unfold Table.dropExtra
    rw [List.mem_filter]
    exact ⟨hc, by simpa [extraColumns] using hc''⟩
  obtain ⟨col, hcol, hget⟩ := get?_columns (columns_ok hcols) s.key hcd
  rw [joined_eq hcol] at hget
  have hgroup : dyn.dropExtra.group (k, t, p) = rowsOf dyn k t p := group_eq _ k t p
  have hin : s.key ∈ dyn.dropExtra.keys := by
    rw [hkey, mem_keys]
    obtain ⟨r, hr⟩ := List.exists_mem_of_ne_nil _ hrows
    rw [← hgroup] at hr
    exact ⟨r, mem_group.1 hr⟩
  rw [if_pos hin, hkey, hgroup] at hget
  obtain ⟨e, he, hek⟩ := (column_ok hcol).2 _ hin
  have hser := ((column_ok hcol).1 e he).2
  rw [hek, hkey, hgroup] at hser
  rw [hser] at hget
  unfold seriesRelaxationValue at hser
  split at hser
  · cases hser
  · rename_i r hr
    have hval := Except.ok.inj hser
    have hfin : Dict.get? (s.vals ++ cols.map (joined s.key)) c = some r.mean := by
      rw [get?_append _ _ _ hnot, hkey, hget, hval]
    refine ⟨r, hr, hfin, ?_⟩
    intro htime
    have : (rowsOf dyn k t p).filterMap (fun r => r.val "time") =
        (rowsOf dyn k t p).map Row.index := by
      rw [← List.filterMap_eq_map]
      apply List.filterMap_congr
      intro r hr
      unfold rowsOf at hr
      exact htime r (List.mem_of_mem_filter hr)
    rw [this]
    exact ⟨r, hr, hfin⟩

/-- **C53** fails for every table: the time column has no influence on any other quantity.  Two
dynamics tables with the same rows but different times give the same values. -/
theorem C53_time_ignored_refuted {signals : Bool} {fit : List (ℝ × ℝ) → Except PyErr Fit}
    {hmean : List ℝ → Except PyErr ℝ} {src : Store} {dyn mol : Table} (newtime : Row → Option ℝ)
    (hd : src.dynamics = some dyn) (hm : src.molecular = some mol) {out out' : List Summary}
    (h : computeRelaxations signals fit hmean src = .ok out)
    (h' : computeRelaxations signals fit hmean { src with dynamics := some { dyn with
      rows := dyn.rows.map (fun r => { r with val := fun c => if c = "time" then newtime r else r.val c }) } } = .ok out')
    {s s' : Summary} (hs : s ∈ out) (hs' : s' ∈ out') (hkey : s.key = s'.key) {k t p : ℝ}
    (hk : s.key = (k, t, p)) (hrows : rowsOf dyn k t p ≠ [])
    {c : String} (hc : c ∈ dyn.columns)
    (hc' : c ∉ ["keyframe", "temperature", "pressure", "time"])
    (hc'' : c ∉ ["mean_displacement", "mean_rotation", "mfd", "overlap"])
    (hname : ∀ m, c ≠ m ++ "_mean" ∧ c ≠ m ++ "_hmean") :
    Dict.get? s.vals c = Dict.get? s'.vals c := by
  simp only [List.mem_cons, List.not_mem_nil, or_false, not_or] at hc'
  let ch : Row → Row := fun r => { r with val := fun c => if c = "time" then newtime r else r.val c }
  have hof : ∀ r, (ch r).Of k t p ↔ r.Of k t p := by
    intro r
    unfold Row.Of
    simp only [ch]
    rw [if_neg (by decide), if_neg (by decide), if_neg (by decide)]
  have hrows' : rowsOf { dyn with rows := dyn.rows.map ch } k t p = (rowsOf dyn k t p).map ch := by
    unfold rowsOf
    rw [List.filter_map]
    congr! 3
  obtain ⟨r, hr, hg, -⟩ := C53_index_partial h hd hm hs hk hrows hc (by simp; tauto) hc'' hname
  obtain ⟨r', hr', hg', -⟩ := C53_index_partial (dyn := { dyn with rows := dyn.rows.map ch })
    (mol := mol) h' rfl hm hs' (hkey.symm.trans hk)
    (by rw [hrows']; simpa using hrows) hc (by simp; tauto) hc'' hname
  rw [hrows', List.map_map, List.map_map] at hr'
  have e1 : Row.index ∘ ch = Row.index := rfl
  have e2 : ((fun r : Row => r.val c) ∘ ch) = fun r => r.val c := by
    funext r
    simp only [Function.comp, ch]
    rw [if_neg hc'.2.2.2]
  rw [e1, e2, hr] at hr'
  rw [hg, hg', Except.ok.inj hr']

/-- It succeeds without the fitted quantities. -/
theorem computeRelaxations_ok (signals : Bool) (fit : List (ℝ × ℝ) → Except PyErr Fit)
    {hmean : List ℝ → Except PyErr ℝ} {dyn mol : Table} {m : List Summary}
    (hm : computeMolecularRelaxations hmean mol = .ok m)
    (hcols : ∀ c ∈ dyn.columns, c ∉ ["msd", "msr", "alpha", "gamma"]) :
    ∃ out, computeRelaxations signals fit hmean ⟨true, some dyn, some mol⟩ = .ok out ∧
      out.map Summary.key = m.map Summary.key := by
  have hc : ∃ cols, relaxationColumns signals fit dyn.dropExtra dyn.dropExtra.dataColumns =
      .ok cols := by
    apply columns_of
    intro c hc
    apply column_of
    intro k hk
    obtain ⟨r, hr, hrk⟩ := mem_keys.1 hk
    have hne : dyn.dropExtra.group k ≠ [] := List.ne_nil_of_mem (mem_group.2 ⟨hr, hrk⟩)
    have hcc := hcols c (List.mem_of_mem_filter (mem_dataColumns.1 hc).1)
    simp only [List.mem_cons, List.not_mem_nil, or_false, not_or] at hcc
    unfold seriesRelaxationValue
    have : ∃ r, computeRelaxationValue signals fit ((dyn.dropExtra.group k).map Row.index)
        ((dyn.dropExtra.group k).map (fun r => r.val c)) c = .ok r := by
      unfold computeRelaxationValue
      rw [if_neg (by simp), if_neg hcc.1, if_neg hcc.2.1]
      split
      · exact threshold_ok _ (by simp) (by simpa using hne) _ _
      · rw [if_neg (by tauto)]
        exact threshold_ok _ (by simp) (by simpa using hne) _ _
    obtain ⟨r, hr⟩ := this
    rw [hr]
    exact ⟨_, rfl⟩
  obtain ⟨cols, hc⟩ := hc
  unfold computeRelaxations
  simp only [Bool.not_true, Bool.false_eq_true, if_false, hc, hm]
  refine ⟨_, rfl, ?_⟩
  unfold join
  rw [List.map_map]
  rfl

/-- A harmonic mean as in scipy before 1.6. -/
noncomputable def oldHmean (l : List ℝ) : Except PyErr ℝ :=
  open Classical in
  if ∀ x ∈ l, 0 < x then .ok (l.length / (l.map (fun x => 1 / x)).sum) else .error .valueError

theorem oldHmean_spec : IsHarmonicMean oldHmean := by
  intro l _ h
  unfold oldHmean
  rw [if_pos h]

/-- One keyframe with one molecule, relaxed after 150 steps. -/
noncomputable def oneMolecule : Table :=
  ⟨["keyframe", "molecule", "tau_F", "temperature", "pressure"],
   [mkRow 0 [("keyframe", 0), ("molecule", 0), ("tau_F", 150), ("temperature", 1),
     ("pressure", 2)]]⟩

/-- Its dynamics after 100 and 200 steps, as `process_file` writes them. -/
noncomputable def twoTimes : Table :=
  ⟨["time", "rot1", "keyframe", "temperature", "pressure"],
   [mkRow 0 [("time", 100), ("rot1", 1), ("keyframe", 0), ("temperature", 1), ("pressure", 2)],
    mkRow 1 [("time", 200), ("rot1", 1 / 10), ("keyframe", 0), ("temperature", 1),
      ("pressure", 2)]]⟩

theorem oneMolecule_relaxed : FullyRelaxed oneMolecule 0 1 2 := by
  refine ⟨⟨_, List.mem_cons_self, rfl, rfl, rfl⟩, ?_⟩
  intro r hr _ c hc
  simp only [oneMolecule, List.mem_cons, List.not_mem_nil, or_false] at hr hc
  subst hr
  rcases hc with rfl | rfl | rfl | rfl | rfl <;> exact ⟨_, rfl, by norm_num⟩

theorem oneMolecule_ok : ∃ m, computeMolecularRelaxations oldHmean oneMolecule = .ok m := by
  refine (C52_succeeds oldHmean_spec _).1 ?_ (by simp [HasKeys, oneMolecule]) ?_
  · intro l e h
    unfold oldHmean at h
    split at h
    · cases h
    · cases h; rfl
  · refine ⟨"tau_F", by simp [oneMolecule], by decide, ?_⟩
    intro k t p _ x hx
    unfold times at hx
    obtain ⟨r, hr, hx⟩ := List.mem_filterMap.1 hx
    have hr := List.mem_of_mem_filter hr
    simp only [oneMolecule, List.mem_cons, List.not_mem_nil, or_false] at hr
    subst hr
    have : (150 : ℝ) = x := Option.some.inj hx
    rw [← this]
    norm_num

/-- The hypotheses of `C52_rows`, `C52_values` and `C52_only` are met by that table: there is one row, for the
keyframe 0, with the mean and the harmonic mean of the time. -/
example : ∃ out s, computeMolecularRelaxations oldHmean oneMolecule = .ok out ∧ s ∈ out ∧ s.key = (0, 1, 2) ∧
    ∃ m hm : ℝ, ("tau_F" ++ "_mean", some m) ∈ s.vals ∧ ("tau_F" ++ "_hmean", some hm) ∈ s.vals ∧ hm ≤ m := by
  obtain ⟨out, hout⟩ := oneMolecule_ok
  obtain ⟨s, hs, hkey⟩ := List.mem_map.1 (((C52_rows hout).2 0 1 2).2 oneMolecule_relaxed)
  obtain ⟨m, hm, h1, h2, -, -, h3⟩ := C52_values (c := "tau_F") oldHmean_spec hout hs hkey
    (by simp [oneMolecule]) (by decide) (by
      intro k t p _ x hx
      unfold times at hx
      obtain ⟨r, hr, hx⟩ := List.mem_filterMap.1 hx
      have hr := List.mem_of_mem_filter hr
      simp only [oneMolecule, List.mem_cons, List.not_mem_nil, or_false] at hr
      subst hr
      have : (150 : ℝ) = x := Option.some.inj hx
      rw [← this]
      norm_num)
  obtain ⟨c, -, -, -⟩ := C52_only hout hs hkey h1
  exact ⟨out, s, hout, hs, hkey, m, hm, h1, h2, h3⟩

theorem tenth_lt : (1 / 10 : ℝ) < 1 / Real.exp 1 := by
  have h1 := Real.exp_one_lt_d9
  have h2 := Real.exp_pos 1
  rw [div_lt_div_iff₀ (by norm_num) h2]
  linarith

theorem lt_one : 1 / Real.exp 1 < 1 := by
  rw [div_lt_one (Real.exp_pos 1)]
  have := Real.add_one_lt_exp (x := 1) one_ne_zero
  linarith

theorem twoTimes_value (signals : Bool) (fit : List (ℝ × ℝ) → Except PyErr Fit) (a b : ℝ) :
    computeRelaxationValue signals fit [a, b] [some 1, some (1 / 10)] "rot1" =
      .ok ⟨some b, some (b - a)⟩ := by
  unfold computeRelaxationValue
  rw [if_neg (by simp), if_neg (by decide), if_neg (by decide), if_neg (by decide),
    if_neg (by decide), threshold_eq (by simp)]
  have hf : FirstBeyond (1 / Real.exp 1) true [some 1, some (1 / 10)] 1 := by
    refine ⟨⟨_, rfl, ?_⟩, ?_⟩
    · simp only [Beyond, if_true]
      exact tenth_lt
    · intro j hj v hv
      obtain rfl : j = 0 := by omega
      obtain rfl := Option.some.inj hv
      simp only [Beyond, if_true, not_lt]
      exact lt_one.le
  rw [argmax_first hf]
  rfl

/-- **C53** is false: the rotational relaxation time is reported as 1, the row number, while from the
time column it is 200. -/
theorem C53_refuted (signals : Bool) (fit : List (ℝ × ℝ) → Except PyErr Fit) :
    ∃ src out s, computeRelaxations signals fit oldHmean src = .ok out ∧ s ∈ out ∧
      src.dynamics = some twoTimes ∧ s.key = (0, 1, 2) ∧
      Dict.get? s.vals "rot1" = some (some 1) ∧
      ∃ r, computeRelaxationValue signals fit
        ((rowsOf twoTimes 0 1 2).filterMap (fun r => r.val "time"))
        ((rowsOf twoTimes 0 1 2).map (fun r => r.val "rot1")) "rot1" = .ok r ∧ r.mean = some 200 := by
  obtain ⟨m, hm⟩ := oneMolecule_ok
  obtain ⟨out, hout, hkeys⟩ := computeRelaxations_ok signals fit (dyn := twoTimes) hm
    (by intro c hc; simp only [twoTimes, List.mem_cons, List.not_mem_nil, or_false] at hc
        rcases hc with rfl | rfl | rfl | rfl | rfl <;> decide)
  have hin : ((0 : ℝ), (1 : ℝ), (2 : ℝ)) ∈ out.map Summary.key := by
    rw [hkeys]
    exact ((C52_rows hm).2 0 1 2).2 oneMolecule_relaxed
  obtain ⟨s, hs, hkey⟩ := List.mem_map.1 hin
  have hrows : rowsOf twoTimes 0 1 2 = twoTimes.rows := by
    unfold rowsOf
    rw [List.filter_eq_self]
    intro r hr
    simp only [twoTimes, List.mem_cons, List.not_mem_nil, or_false] at hr
    simp only [decide_eq_true_eq]
    rcases hr with rfl | rfl <;> exact ⟨rfl, rfl, rfl⟩
  refine ⟨_, out, s, hout, hs, rfl, hkey, ?_, ?_⟩
  · obtain ⟨r, hr, hg, -⟩ := C53_index_partial (c := "rot1") hout rfl rfl hs hkey
      (by rw [hrows]; simp [twoTimes]) (by simp [twoTimes]) (by decide) (by decide) (by
        intro m
        constructor
        · intro h
          have := congrArg (fun s : String => s.toList.getLast?) h
          simp at this
        · intro h
          have := congrArg (fun s : String => s.toList.getLast?) h
          simp at this)
    rw [hrows] at hr
    have e : computeRelaxationValue signals fit (twoTimes.rows.map Row.index)
        (twoTimes.rows.map (fun r => r.val "rot1")) "rot1" = .ok ⟨some 1, some (1 - 0)⟩ :=
      twoTimes_value signals fit 0 1
    rw [e] at hr
    rw [hg, ← Except.ok.inj hr]
  · rw [hrows]
    exact ⟨_, twoTimes_value signals fit 100 200, rfl⟩

/-! ## C54 -/

/-- **C54**, partial: when temperature and pressure are known, every fully relaxed keyframe has a
row, and no other.  Missing: unknown temperature or pressure (`C54_refuted`). -/
theorem C54_known_partial {signals : Bool} {fit : List (ℝ × ℝ) → Except PyErr Fit}
    {hmean : List ℝ → Except PyErr ℝ} {src : Store} {out : List Summary} {mol : Table}
    (h : computeRelaxations signals fit hmean src = .ok out) (hm : src.molecular = some mol) :
    (out.map Summary.key).Nodup ∧
      ∀ k t p, (k, t, p) ∈ out.map Summary.key ↔ FullyRelaxed mol k t p := by
  obtain ⟨dyn', mol', m, cols, hd', hm', hmm, hcols, rfl⟩ := computeRelaxations_eq h
  rw [hm] at hm'
  obtain rfl := Option.some.inj hm'
  have : (join m cols).map Summary.key = m.map Summary.key := by
    unfold join
    rw [List.map_map]
    rfl
  rw [this]
  exact C52_rows hmm

/-- The hypotheses of `C53_index_partial` and `C54_known_partial` are met by the tables of `C53_refuted`: there
is a row for the keyframe 0 at temperature 1 and pressure 2. -/
example (signals : Bool) (fit : List (ℝ × ℝ) → Except PyErr Fit) :
    ∃ src out, computeRelaxations signals fit oldHmean src = .ok out ∧ src.dynamics = some twoTimes ∧
      src.molecular = some oneMolecule ∧ (0, 1, 2) ∈ out.map Summary.key := by
  obtain ⟨m, hm⟩ := oneMolecule_ok
  obtain ⟨out, hout, -⟩ := computeRelaxations_ok signals fit (dyn := twoTimes) hm
    (by intro c hc; simp only [twoTimes, List.mem_cons, List.not_mem_nil, or_false] at hc
        rcases hc with rfl | rfl | rfl | rfl | rfl <;> decide)
  exact ⟨_, out, hout, rfl, rfl, ((C54_known_partial hout rfl).2 0 1 2).2 oneMolecule_relaxed⟩

/-- **C54** is false, for every file without temperature (or pressure): nothing is summarised. -/
theorem C54_refuted {signals : Bool} {fit : List (ℝ × ℝ) → Except PyErr Fit}
    {hmean : List ℝ → Except PyErr ℝ} {src : Store} {out : List Summary} {mol : Table}
    (h : computeRelaxations signals fit hmean src = .ok out) (hm : src.molecular = some mol)
    (hnan : ∀ r ∈ mol.rows, r.val "temperature" = none ∨ r.val "pressure" = none) : out = [] := by
  cases out with
  | nil => rfl
  | cons s out =>
    have hin := ((C54_known_partial h hm).2 s.key.1 s.key.2.1 s.key.2.2).1 (by simp)
    obtain ⟨r, hr, -, ht, hp⟩ := hin.1
    rcases hnan r hr with h | h
    · rw [ht] at h; cases h
    · rw [hp] at h; cases h

/-- A file of which the name has no temperature: one molecule, relaxed. -/
example : ∃ mol : Table, HasKeys mol ∧
    (∀ r ∈ mol.rows, r.val "temperature" = none ∨ r.val "pressure" = none) ∧
    ∃ r ∈ mol.rows, r.val "keyframe" = some 0 ∧ r.val "tau_F" = some 150 :=
  ⟨⟨["keyframe", "molecule", "tau_F", "temperature", "pressure"],
    [mkRow 0 [("keyframe", 0), ("molecule", 0), ("tau_F", 150), ("pressure", 2)]]⟩,
    by simp [HasKeys], by simp [mkRow, Dict.get?], _, List.mem_cons_self, rfl, rfl⟩

end Verif.Tables
