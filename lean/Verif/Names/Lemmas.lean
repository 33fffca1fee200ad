import Verif.Names.Spec
import Verif.TextLemmas
import Mathlib.Tactic.Linarith
import Mathlib.Tactic.Ring
import Mathlib.Tactic.FieldSimp
import Mathlib.Tactic.NormNum
import Mathlib.Data.List.Basic
/-!
# Lemmas for the file names
-/

namespace Verif.Names

open Verif.Text

/-! ## splitting -/

theorem splitOnGo_append (sep : Char) (w : List Char) (hw : sep ∉ w) :
    ∀ (s acc : List Char), splitOnGo sep acc (s ++ sep :: w) = splitOnGo sep acc s ++ [w] := by
  intro s
  induction s with
  | nil =>
    intro acc
    simp only [List.nil_append, splitOnGo, if_true]
    have := splitOn_word sep w hw
    unfold splitOn at this
    rw [this]
    rfl
  | cons c s ih =>
    intro acc
    simp only [List.cons_append, splitOnGo]
    split
    · rw [ih]; rfl
    · rw [ih]

theorem splitOn_append (sep : Char) (s w : List Char) (hw : sep ∉ w) :
    splitOn sep (s ++ sep :: w) = splitOn sep s ++ [w] := splitOnGo_append sep w hw s []

theorem pathName_join (dir w : List Char) (hw : '/' ∉ w) (h0 : w ≠ []) (h1 : w ≠ ['.']) :
    pathName (dir ++ '/' :: w) = w := by
  unfold pathName
  rw [splitOn_append _ _ _ hw, List.filter_append]
  simp [h0, h1]

theorem takeWhile_ne_append (e r : List Char) (he : '.' ∉ e) :
    (e ++ '.' :: r).takeWhile (fun c => decide (c ≠ '.')) = e := by
  induction e with
  | nil => simp
  | cons c e ih =>
    simp only [List.mem_cons, not_or] at he
    have : c ≠ '.' := fun h => he.1 h.symm
    rw [List.cons_append, List.takeWhile_cons, if_pos (by simpa using this), ih he.2]

theorem stem_ext (x e : List Char) (hx : x ≠ []) (he : e ≠ []) (hd : '.' ∉ e) :
    stem (x ++ '.' :: e) = x := by
  have h1 : ((x ++ '.' :: e).reverse.takeWhile (fun c => decide (c ≠ '.'))).reverse = e := by
    have : (x ++ '.' :: e).reverse = e.reverse ++ '.' :: x.reverse := by simp
    rw [this, takeWhile_ne_append _ _ (by simpa using hd), List.reverse_reverse]
  unfold stem
  simp only [h1]
  have hl : 0 < x.length := List.length_pos_iff.2 hx
  rw [if_pos ⟨by simp, he, by simp; omega⟩]
  have : (x ++ '.' :: e).length - e.length - 1 = x.length := by simp; omega
  rw [this]
  simp

theorem splitOn_dashed : ∀ (x : List Char) (xs : List (List Char)),
    (∀ w ∈ x :: xs, '-' ∉ w) → splitOn '-' (dashed (x :: xs)) = x :: xs := by
  intro x xs
  induction xs generalizing x with
  | nil => intro h; exact splitOn_word '-' x (h x (by simp))
  | cons y ys ih =>
    intro h
    simp only [dashed]
    rw [splitOn_word_sep _ _ _ (h x (by simp)), ih y (fun w hw => h w (List.mem_cons_of_mem _ hw))]

theorem dashed_no_slash : ∀ (ps : List (List Char)), (∀ w ∈ ps, '/' ∉ w) → '/' ∉ dashed ps := by
  intro ps
  induction ps with
  | nil => simp [dashed]
  | cons x xs ih =>
    intro h
    cases xs with
    | nil => exact h x (by simp)
    | cons y ys =>
      simp only [dashed, List.mem_append, List.mem_cons, not_or]
      exact ⟨h x (by simp), by decide, ih (fun w hw => h w (List.mem_cons_of_mem _ hw))⟩

theorem dashed_ne_nil (x : List Char) (xs : List (List Char)) (h : x ≠ []) :
    dashed (x :: xs) ≠ [] := by
  cases xs with
  | nil => exact h
  | cons y ys => simp [dashed]

theorem pieces_of_named (dir : List Char) (x : List Char) (xs : List (List Char)) (ext : List Char)
    (hx : x ≠ []) (h : ∀ w ∈ x :: xs, Plain w) (he : Extension ext) :
    splitOn '-' (stem (pathName (namedPath dir (x :: xs) ext))) = x :: xs := by
  unfold namedPath
  rw [pathName_join, stem_ext _ _ (dashed_ne_nil x xs hx) he.1 he.2.1,
    splitOn_dashed x xs (fun w hw => (h w hw).1)]
  · simp only [List.mem_append, List.mem_cons, not_or]
    exact ⟨dashed_no_slash _ (fun w hw => (h w hw).2), by decide, he.2.2⟩
  · simp
  · intro hc
    have := congrArg List.length hc
    have hl := List.length_pos_iff.2 (dashed_ne_nil x xs hx)
    simp only [List.length_append, List.length_cons, List.length_nil] at this
    have := List.length_pos_iff.2 he.1
    omega

/-! ## the loop over the items -/

theorem item_error (v : Variables) (w : List Char) :
    (∃ e, v.item w = .error e) ↔ w = [] := by
  constructor
  · rintro ⟨e, h⟩
    unfold Variables.item at h
    split at h <;> simp_all
  · rintro rfl
    exact ⟨_, rfl⟩

theorem gives_or (w : List Char) (hw : w ≠ []) : ∃ k x, Gives w k x := by
  match w, hw with
  | 'P' :: r, _ => exact ⟨.pressure, r, rfl⟩
  | 'T' :: r, _ => exact ⟨.temperature, r, rfl⟩
  | 'I' :: 'D' :: r, _ => exact ⟨.iterationId, r, rfl⟩
  | c :: r, _ =>
    by_cases h1 : ['P'] <+: c :: r
    · obtain ⟨t, ht⟩ := h1
      exact ⟨.pressure, t, ht.symm⟩
    · by_cases h2 : ['T'] <+: c :: r
      · obtain ⟨t, ht⟩ := h2
        exact ⟨.temperature, t, ht.symm⟩
      · by_cases h3 : "ID".toList <+: c :: r
        · obtain ⟨t, ht⟩ := h3
          exact ⟨.iterationId, t, ht.symm⟩
        · exact ⟨.crystal, c :: r, rfl, by simp, h1, h2, h3⟩

theorem gives_unique (w : List Char) (k k' : Kind) (x x' : List Char) (h : Gives w k x)
    (h' : Gives w k' x') : k = k' ∧ x = x' := by
  have hc : ∀ y, Gives w .crystal y → ∀ j z, Gives w j z → j = .crystal ∧ z = y := by
    rintro y ⟨rfl, _, h1, h2, h3⟩ j z hz
    cases j with
    | pressure => exact absurd ⟨z, hz.symm⟩ h1
    | temperature => exact absurd ⟨z, hz.symm⟩ h2
    | iterationId => exact absurd ⟨z, hz.symm⟩ h3
    | crystal => exact ⟨rfl, hz.1.symm⟩
  by_cases h1 : k = .crystal
  · subst h1
    obtain ⟨a, b⟩ := hc _ h _ _ h'
    exact ⟨a.symm, b.symm⟩
  · by_cases h2 : k' = .crystal
    · subst h2
      exact hc _ h' _ _ h
    · cases k <;> cases k' <;> simp only [Gives] at h h' <;> simp_all

/-- A turn of the loop sets the variable of the kind of the item. -/
theorem item_get (v : Variables) (w : List Char) (k : Kind) (x : List Char) (h : Gives w k x) :
    ∃ v', v.item w = .ok v' ∧ ∀ k', v'.get k' = if k' = k then some x else v.get k' := by
  unfold Variables.item
  split
  · cases k <;> simp_all [Gives]
  · rename_i r
    obtain ⟨rfl, rfl⟩ := gives_unique _ _ _ _ _ h (show Gives ('P' :: r) .pressure r from rfl)
    exact ⟨_, rfl, fun k' => by cases k' <;> rfl⟩
  · rename_i r
    obtain ⟨rfl, rfl⟩ := gives_unique _ _ _ _ _ h (show Gives ('T' :: r) .temperature r from rfl)
    exact ⟨_, rfl, fun k' => by cases k' <;> rfl⟩
  · rename_i r
    obtain ⟨rfl, rfl⟩ := gives_unique _ _ _ _ _ h
      (show Gives ('I' :: 'D' :: r) .iterationId r from rfl)
    exact ⟨_, rfl, fun k' => by cases k' <;> rfl⟩
  · rename_i h1 h2 h3 h4
    cases k with
    | pressure => exact absurd h (h2 x)
    | temperature => exact absurd h (h3 x)
    | iterationId => exact absurd h (h4 x)
    | crystal =>
      obtain ⟨rfl, _⟩ := h
      exact ⟨_, rfl, fun k' => by cases k' <;> rfl⟩

theorem variables_ext (v v' : Variables) (h : ∀ k, v.get k = v'.get k) : v = v' := by
  have h1 := h .pressure
  have h2 := h .temperature
  have h3 := h .iterationId
  have h4 := h .crystal
  cases v; cases v'
  simp only [Variables.get] at h1 h2 h3 h4
  subst h1 h2 h3 h4
  rfl

theorem items_error (xs : List (List Char)) : ∀ v,
    [] ∈ xs → Variables.items v xs = .error .indexError := by
  induction xs with
  | nil => intro v h; simp at h
  | cons w xs ih =>
    intro v h
    unfold Variables.items
    by_cases hw : w = []
    · subst hw; rfl
    · obtain ⟨k, x, hg⟩ := gives_or w hw
      obtain ⟨v', hv', _⟩ := item_get v w k x hg
      rw [hv']
      simp only
      refine ih v' ?_
      rcases List.mem_cons.1 h with h | h
      · exact absurd h.symm hw
      · exact h

/-- The variables after the loop: the last item of each kind. -/
theorem items_get (xs : List (List Char)) : ∀ v, [] ∉ xs →
    ∃ v', Variables.items v xs = .ok v' ∧
      ∀ k, (∀ x, v'.get k = some x ↔
        (∃ pre w post, xs = pre ++ w :: post ∧ Gives w k x ∧ ∀ u ∈ post, ∀ y, ¬ Gives u k y) ∨
        ((∀ u ∈ xs, ∀ y, ¬ Gives u k y) ∧ v.get k = some x)) := by
  induction xs with
  | nil =>
    intro v _
    refine ⟨v, rfl, fun k x => ?_⟩
    constructor
    · intro h; exact Or.inr ⟨by simp, h⟩
    · rintro (⟨pre, w, post, h, _⟩ | ⟨_, h⟩)
      · simp at h
      · exact h
  | cons w xs ih =>
    intro v hne
    simp only [List.mem_cons, not_or] at hne
    obtain ⟨k0, x0, hg⟩ := gives_or w (fun h => hne.1 h.symm)
    obtain ⟨v1, hv1, hget⟩ := item_get v w k0 x0 hg
    obtain ⟨v', hv', hprop⟩ := ih v1 hne.2
    refine ⟨v', by unfold Variables.items; rw [hv1]; exact hv', fun k x => ?_⟩
    rw [hprop k x]
    constructor
    · rintro (⟨pre, u, post, rfl, hu, hpost⟩ | ⟨hno, hv⟩)
      · exact Or.inl ⟨w :: pre, u, post, rfl, hu, hpost⟩
      · rw [hget k] at hv
        split at hv
        · rename_i hk
          subst hk
          simp only [Option.some.injEq] at hv
          subst hv
          exact Or.inl ⟨[], w, xs, rfl, hg, hno⟩
        · rename_i hk
          refine Or.inr ⟨?_, hv⟩
          intro u hu y hy
          rcases List.mem_cons.1 hu with rfl | hu
          · exact hk (gives_unique _ _ _ _ _ hy hg).1
          · exact hno u hu y hy
    · rintro (⟨pre, u, post, heq, hu, hpost⟩ | ⟨hno, hv⟩)
      · cases pre with
        | nil =>
          simp only [List.nil_append, List.cons.injEq] at heq
          obtain ⟨rfl, rfl⟩ := heq
          obtain ⟨rfl, rfl⟩ := gives_unique _ _ _ _ _ hu hg
          refine Or.inr ⟨hpost, ?_⟩
          rw [hget, if_pos rfl]
        | cons p pre =>
          simp only [List.cons_append, List.cons.injEq] at heq
          exact Or.inl ⟨pre, u, post, heq.2, hu, hpost⟩
      · refine Or.inr ⟨fun u hu => hno u (List.mem_cons_of_mem _ hu), ?_⟩
        rw [hget, if_neg]
        · exact hv
        · rintro rfl
          exact hno w (by simp) x0 hg

/-! ## numbers -/

theorem showNat_digits (n : Nat) : ∃ ds : List Nat, ds ≠ [] ∧ (∀ d ∈ ds, d < 10) ∧
    showNat n = ds.map (fun d => Char.ofNat (48 + d)) ∧ digitsValue ds = n := by
  induction n using Nat.strong_induction_on with
  | _ n ih =>
    rw [showNat]
    split
    · rename_i h
      exact ⟨[n], by simp, by simpa using h, rfl, by simp [digitsValue]⟩
    · rename_i h
      obtain ⟨ds, h1, h2, h3, h4⟩ := ih (n / 10) (by omega)
      refine ⟨ds ++ [n % 10], by simp, ?_, by simp [h3], ?_⟩
      · intro d hd
        rcases List.mem_append.1 hd with hd | hd
        · exact h2 d hd
        · simp at hd; omega
      · unfold digitsValue at h4 ⊢
        rw [List.foldl_append, h4]
        simp only [List.foldl_cons, List.foldl_nil]
        omega

theorem roundHalfEven_near (x : ℚ) : |(roundHalfEven x : ℚ) - x| ≤ 1 / 2 := by
  have h1 := Int.floor_le x
  have h2 := Int.lt_floor_add_one x
  unfold roundHalfEven
  rw [abs_le]
  split_ifs <;> push_cast <;> constructor <;> linarith

theorem roundHalfEven_nonneg (x : ℚ) (h : 0 ≤ x) : 0 ≤ roundHalfEven x := by
  have := Int.floor_nonneg.2 h
  unfold roundHalfEven
  split_ifs <;> omega

/-- `{:.2f}` of a non-negative number is the text of the number rounded to two decimals. -/
theorem fmt2_text (x : ℚ) (hx : 0 ≤ x) : ∃ r, RoundedTo2 x r ∧ DecimalText (fmt2 x) r := by
  have hn := roundHalfEven_nonneg (100 * |x|) (by positivity)
  have hr := roundHalfEven_near (100 * |x|)
  obtain ⟨n, hn'⟩ := Int.eq_ofNat_of_zero_le hn
  obtain ⟨ds, h1, h2, h3, h4⟩ := showNat_digits (n / 100)
  refine ⟨(n : ℚ) / 100, ⟨⟨n, by simp⟩, ?_⟩, ds, n % 100 / 10, n % 10, h1, h2, by omega, by omega,
    ?_, ?_⟩
  · rw [hn', abs_of_nonneg hx] at hr
    rw [abs_le] at hr ⊢
    push_cast at hr
    constructor <;> linarith [hr.1, hr.2]
  · unfold fmt2
    simp only [hn', Int.toNat_natCast, if_neg (not_lt.2 hx), List.nil_append, h3]
  · rw [h4]
    have : n = 100 * (n / 100) + (10 * (n % 100 / 10) + n % 10) := by omega
    have hq : (n : ℚ) = ((100 * (n / 100) + (10 * (n % 100 / 10) + n % 10) : ℕ) : ℚ) := by
      exact_mod_cast this
    rw [hq]
    push_cast
    ring_nf

theorem decimalText_plain (s : List Char) (q : ℚ) (h : DecimalText s q) : Plain s := by
  obtain ⟨ds, a, b, _, h2, ha, hb, rfl, _⟩ := h
  have key : ∀ d, d < 10 → Char.ofNat (48 + d) ≠ '-' ∧ Char.ofNat (48 + d) ≠ '/' := by
    intro d hd
    interval_cases d <;> decide
  constructor
  · simp only [List.mem_append, List.mem_map, List.mem_cons, List.not_mem_nil, or_false, not_or,
      not_exists, not_and]
    exact ⟨fun d hd => (key d (h2 d hd)).1, by decide, fun h => (key a ha).1 h.symm,
      fun h => (key b hb).1 h.symm⟩
  · simp only [List.mem_append, List.mem_map, List.mem_cons, List.not_mem_nil, or_false, not_or,
      not_exists, not_and]
    exact ⟨fun d hd => (key d (h2 d hd)).2, by decide, fun h => (key a ha).2 h.symm,
      fun h => (key b hb).2 h.symm⟩

theorem fmt2_noslash (x : ℚ) : '/' ∉ fmt2 x := by
  have h : fmt2 x = (if x < 0 then ['-'] else []) ++ fmt2 |x| := by
    unfold fmt2
    simp only [abs_abs, if_neg (not_lt.2 (abs_nonneg x)), List.nil_append, List.append_assoc]
  obtain ⟨r, _, hr⟩ := fmt2_text |x| (abs_nonneg x)
  rw [h, List.mem_append, not_or]
  refine ⟨?_, (decimalText_plain _ _ hr).2⟩
  split <;> simp

end Verif.Names
