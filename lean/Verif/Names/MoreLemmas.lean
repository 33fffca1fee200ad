import Verif.Names.Lemmas
/-!
# Lemmas on the names written by `SimulationParams.filename`, on directories and on `__dict__`
-/

namespace Verif.Names

open Verif.Text

/-! ## names -/

theorem dashed_cons (x : List Char) (xs : List (List Char)) :
    dashed (x :: xs) = x ++ xs.flatMap (fun w => '-' :: w) := by
  induction xs generalizing x with
  | nil => simp [dashed]
  | cons y ys ih => simp only [dashed, ih y, List.flatMap_cons, List.cons_append]

theorem fmt2_neg (x : ℚ) (h : x < 0) : fmt2 x = '-' :: fmt2 (-x) := by
  unfold fmt2
  have h2 : ¬ (-x < 0) := by linarith
  simp [h, h2]

/-- The pieces of `-I{..}` and `-K{..}`: a minus sign makes a piece of its own. -/
def numPieces (c : Char) (x : ℚ) : List (List Char) :=
  if x < 0 then [[c], fmt2 (-x)] else [c :: fmt2 x]

/-- The same for an optional value. -/
def optPieces (c : Char) : Option ℚ → List (List Char)
  | none => []
  | some x => numPieces c x

theorem numPieces_text (c : Char) (x : ℚ) :
    (numPieces c x).flatMap (fun w => '-' :: w) = '-' :: c :: fmt2 x := by
  unfold numPieces
  split
  · rename_i h
    simp [fmt2_neg x h]
  · simp

/-- The pieces of the name. -/
def Params.pieces (p : Params) : List (List Char) :=
  ['P' :: fmt2 p.pressure, 'T' :: fmt2 p.temperature] ++ optPieces 'I' p.momentInertiaScale ++
    optPieces 'K' p.harmonicForce ++ p.spaceGroup.toList

theorem filename_eq (p : Params) (pre : Option (List Char)) :
    p.filename pre =
      namedPath p.output (pre.toList ++ p.molecule.str :: p.pieces) "gsd".toList := by
  have hd : dashed (pre.toList ++ p.molecule.str :: p.pieces) =
      (match pre with
        | some x => x ++ ['-']
        | none => []) ++ dashed (p.molecule.str :: p.pieces) := by
    cases pre with
    | none => rfl
    | some x =>
      rw [Option.toList_some, List.singleton_append, dashed_cons, dashed_cons]
      simp
  have hI : ∀ (c : Char) (o : Option ℚ), (optPieces c o).flatMap (fun w => '-' :: w) =
      match o with
        | some x => '-' :: c :: fmt2 x
        | none => [] := by
    intro c o
    cases o with
    | none => rfl
    | some x => exact numPieces_text c x
  unfold Params.filename joinPath namedPath
  rw [hd, dashed_cons]
  unfold Params.pieces Params.baseName
  simp only [List.flatMap_append, hI]
  cases p.momentInertiaScale <;> cases p.harmonicForce <;> cases p.spaceGroup <;>
    cases pre <;> simp

theorem fmt2_crystal (x : ℚ) (h : 0 ≤ x) : Gives (fmt2 x) .crystal (fmt2 x) ∧ Plain (fmt2 x) := by
  obtain ⟨r, _, hd⟩ := fmt2_text x h
  refine ⟨?_, decimalText_plain _ _ hd⟩
  obtain ⟨ds, a, b, h1, h2, _, _, h3, _⟩ := hd
  cases ds with
  | nil => exact absurd rfl h1
  | cons d ds =>
    have hd10 : d < 10 := h2 d (by simp)
    rw [h3]
    refine ⟨rfl, by simp, ?_, ?_, ?_⟩
    · rintro ⟨t, ht⟩
      simp only [List.map_cons, List.cons_append, List.cons.injEq] at ht
      have := ht.1
      interval_cases d <;> simp at this
    · rintro ⟨t, ht⟩
      simp only [List.map_cons, List.cons_append, List.cons.injEq] at ht
      have := ht.1
      interval_cases d <;> simp at this
    · rintro ⟨t, ht⟩
      have h' : 'I' :: 'D' :: t = ((d :: ds).map fun d => Char.ofNat (48 + d)) ++
        ['.', Char.ofNat (48 + a), Char.ofNat (48 + b)] := ht
      simp only [List.map_cons, List.cons_append, List.cons.injEq] at h'
      have := h'.1
      interval_cases d <;> simp at this

theorem fmt2_head (x : ℚ) (h : 0 ≤ x) : ∃ d t, d < 10 ∧ fmt2 x = Char.ofNat (48 + d) :: t := by
  obtain ⟨r, _, ds, a, b, h1, h2, _, _, h3, _⟩ := fmt2_text x h
  cases ds with
  | nil => exact absurd rfl h1
  | cons d ds => exact ⟨d, _, h2 d (by simp), by rw [h3, List.map_cons, List.cons_append]⟩

theorem numPieces_crystal (c : Char) (hc : c = 'I' ∨ c = 'K') (x : ℚ) :
    ∀ w ∈ numPieces c x, Gives w .crystal w ∧ Plain w := by
  intro w hw
  unfold numPieces at hw
  have key : ∀ y, 0 ≤ y → Gives (c :: fmt2 y) .crystal (c :: fmt2 y) ∧ Plain (c :: fmt2 y) := by
    intro y hy
    obtain ⟨hg, hp⟩ := fmt2_crystal y hy
    obtain ⟨d, t, hd, ht⟩ := fmt2_head y hy
    refine ⟨⟨rfl, by simp, ?_, ?_, ?_⟩, ?_⟩
    · rintro ⟨t, ht⟩
      simp only [List.cons_append, List.cons.injEq] at ht
      rcases hc with rfl | rfl <;> simp at ht
    · rintro ⟨t, ht⟩
      simp only [List.cons_append, List.cons.injEq] at ht
      rcases hc with rfl | rfl <;> simp at ht
    · rintro ⟨t', ht'⟩
      have h' : 'I' :: 'D' :: t' = c :: fmt2 y := ht'
      rw [ht] at h'
      simp only [List.cons.injEq] at h'
      have := h'.2.1
      interval_cases d <;> simp at this
    · constructor
      · simp only [List.mem_cons, not_or]
        exact ⟨by rcases hc with rfl | rfl <;> decide, hp.1⟩
      · simp only [List.mem_cons, not_or]
        exact ⟨by rcases hc with rfl | rfl <;> decide, hp.2⟩
  split at hw
  · rename_i hx
    simp only [List.mem_cons, List.not_mem_nil, or_false] at hw
    rcases hw with rfl | rfl
    · rcases hc with rfl | rfl
      · exact ⟨⟨rfl, by decide, by decide, by decide, by decide⟩, by constructor <;> decide⟩
      · exact ⟨⟨rfl, by decide, by decide, by decide, by decide⟩, by constructor <;> decide⟩
    · exact fmt2_crystal _ (by linarith)
  · rename_i hx
    simp only [List.mem_cons, List.not_mem_nil, or_false] at hw
    subst hw
    exact key x (not_lt.1 hx)

theorem optPieces_crystal (c : Char) (hc : c = 'I' ∨ c = 'K') (o : Option ℚ) :
    ∀ w ∈ optPieces c o, Gives w .crystal w ∧ Plain w := by
  cases o with
  | none => intro w hw; simp [optPieces] at hw
  | some x => exact numPieces_crystal c hc x

theorem item_crystal (v : Variables) (w : List Char) (h : Gives w .crystal w) :
    v.item w = .ok { v with crystal := some w } := by
  obtain ⟨v', hv', hget⟩ := item_get v w _ _ h
  rw [hv']
  congr 1
  apply variables_ext
  intro k
  rw [hget k]
  cases k <;> rfl

theorem items_crystals (xs : List (List Char)) (h : ∀ w ∈ xs, Gives w .crystal w)
    (sg : List Char) (hs : Gives sg .crystal sg) : ∀ v,
    Variables.items v (xs ++ [sg]) = .ok { v with crystal := some sg } := by
  induction xs with
  | nil =>
    intro v
    simp [Variables.items, item_crystal v sg hs]
  | cons w xs ih =>
    intro v
    rw [List.cons_append, Variables.items, item_crystal v w (h w (by simp))]
    simp only
    rw [ih (fun u hu => h u (List.mem_cons_of_mem _ hu))]

theorem items_append (xs ys : List (List Char)) : ∀ v, Variables.items v (xs ++ ys) =
    match Variables.items v xs with
    | .ok v' => Variables.items v' ys
    | .error e => .error e := by
  induction xs with
  | nil => intro v; rfl
  | cons x xs ih =>
    intro v
    simp only [List.cons_append, Variables.items]
    cases v.item x with
    | ok v' => exact ih v'
    | error e => rfl

/-- What the loop takes the molecule for. -/
def molCrystal : MolClass → Option (List Char)
  | .trimer => none
  | m => some m.str

theorem items_mol (m : MolClass) (a b : List Char) (rest : List (List Char)) :
    Variables.items Variables.empty (m.str :: ('P' :: a) :: ('T' :: b) :: rest) =
      Variables.items ⟨some b, some a, molCrystal m, none⟩ rest := by
  cases m <;> rfl

theorem pieces_eq (p : Params) : p.pieces = ('P' :: fmt2 p.pressure) ::
    ('T' :: fmt2 p.temperature) :: ((optPieces 'I' p.momentInertiaScale ++
      optPieces 'K' p.harmonicForce) ++ p.spaceGroup.toList) := by
  unfold Params.pieces
  simp only [List.append_assoc, List.cons_append, List.nil_append]

theorem dropPrefix_known (pre : Option (List Char)) (h : KnownPrefix pre) (m : MolClass)
    (ps : List (List Char)) : dropPrefix (pre.toList ++ m.str :: ps) = m.str :: ps := by
  rcases h with rfl | rfl | rfl | rfl
  · have : m.str ∉ prefixes := by cases m <;> decide
    simp [dropPrefix, this]
  all_goals
    simp only [Option.toList_some, List.cons_append, List.nil_append, dropPrefix]
    rw [if_pos (by decide)]

theorem molClass_plain (m : MolClass) : Plain m.str ∧ m.str ≠ [] := by
  cases m <;> (refine ⟨⟨?_, ?_⟩, ?_⟩ <;> decide)

theorem gsd_extension : Extension "gsd".toList := ⟨by decide, by decide, by decide⟩

theorem plain_P (x : ℚ) (h : 0 ≤ x) (c : Char) (hc : c = 'P' ∨ c = 'T') : Plain (c :: fmt2 x) := by
  obtain ⟨_, hp⟩ := fmt2_crystal x h
  constructor
  · simp only [List.mem_cons, not_or]
    exact ⟨by rcases hc with rfl | rfl <;> decide, hp.1⟩
  · simp only [List.mem_cons, not_or]
    exact ⟨by rcases hc with rfl | rfl <;> decide, hp.2⟩

/-- Reading a written name: the loop runs over the molecule and the pieces. -/
theorem fromFilename_written (p : Params) (pre : Option (List Char)) (hpre : KnownPrefix pre)
    (hP : 0 ≤ p.pressure) (hT : 0 ≤ p.temperature) (hsg : ∀ sg ∈ p.spaceGroup, Plain sg) :
    fromFilename (p.filename pre) =
      Variables.items Variables.empty (p.molecule.str :: p.pieces) := by
  have hplain : ∀ w ∈ p.molecule.str :: p.pieces, Plain w := by
    intro w hw
    unfold Params.pieces at hw
    simp only [List.cons_append, List.nil_append, List.append_assoc, List.mem_cons,
      List.mem_append] at hw
    rcases hw with rfl | rfl | rfl | hw | hw | hw
    · exact (molClass_plain _).1
    · exact plain_P _ hP _ (Or.inl rfl)
    · exact plain_P _ hT _ (Or.inr rfl)
    · exact (optPieces_crystal _ (Or.inl rfl) _ w hw).2
    · exact (optPieces_crystal _ (Or.inr rfl) _ w hw).2
    · exact hsg w (by simpa using hw)
  unfold fromFilename
  have hsplit : splitOn '-' (stem (pathName (p.filename pre))) =
      pre.toList ++ p.molecule.str :: p.pieces := by
    rw [filename_eq]
    rcases hpre with rfl | rfl | rfl | rfl
    · exact pieces_of_named _ _ _ _ (molClass_plain _).2 hplain gsd_extension
    all_goals
      refine pieces_of_named _ _ _ _ (by decide) ?_ gsd_extension
      intro w hw
      rcases List.mem_cons.1 hw with rfl | hw
      · constructor <;> decide
      · exact hplain w hw
  simp only [hsplit, dropPrefix_known pre hpre]
  rw [if_neg]
  unfold Params.pieces
  simp

/-! ## directories -/

theorem get?_within {ν : Type} (d : Dict (List Char) (List ν)) (k k' : List Char)
    (g : List ν → List ν) :
    Dict.get? (within d k g) k' =
      if k = k' then some (g ((Dict.get? d k).getD [])) else Dict.get? d k' := by
  unfold within
  simp only [Dict.get?_set, Dict.get?_setdefault, if_true, Option.getD_some]
  split <;> rfl

theorem lookup_insert (d : Tree) (p t c i f p' t' c' i' : List Char) :
    Tree.lookup (insertFile d p t c i f) p' t' c' i' =
      if p = p' ∧ t = t' ∧ c = c' ∧ i = i' then some f else Tree.lookup d p' t' c' i' := by
  unfold Tree.lookup insertFile
  rw [get?_within]
  by_cases hp : p = p'
  · subst hp
    simp only [if_true, true_and, Option.bind_some]
    rw [get?_within]
    by_cases ht : t = t'
    · subst ht
      simp only [if_true, true_and, Option.bind_some]
      rw [get?_within]
      by_cases hc : c = c'
      · subst hc
        simp only [if_true, true_and, Option.bind_some]
        rw [Dict.get?_set]
        by_cases hi : i = i'
        · simp [hi]
        · simp only [hi, if_false]
          cases Dict.get? d p with
          | none => simp [Dict.get?]
          | some a =>
            simp only [Option.getD_some, Option.bind_some]
            cases Dict.get? a t with
            | none => simp [Dict.get?]
            | some b =>
              simp only [Option.getD_some, Option.bind_some]
              cases Dict.get? b c <;> simp [Dict.get?]
      · simp only [hc, if_false, false_and]
        cases Dict.get? d p with
        | none => simp [Dict.get?]
        | some a =>
          simp only [Option.getD_some, Option.bind_some]
          cases Dict.get? a t <;> simp [Dict.get?]
    · simp only [ht, if_false, false_and]
      cases Dict.get? d p <;> simp [Dict.get?]
  · simp [hp]

theorem strOpt_prints (o : Option (List Char)) (s : List Char) : strOpt o = s ↔ PrintsAs o s := by
  cases o with
  | none =>
    simp only [strOpt, PrintsAs, true_and]
    constructor
    · intro h; exact Or.inr h.symm
    · rintro (h | h)
      · simp at h
      · exact h.symm
  | some x => simp [strOpt, PrintsAs]

theorem assertStr_ok (o : Option (List Char)) (s : List Char) :
    assertStr o = .ok s ↔ o = some s ∧ s ≠ [] := by
  match o with
  | none => simp [assertStr]
  | some [] =>
    simp only [assertStr, reduceCtorEq, Option.some.injEq, ne_eq, false_iff, not_and, not_not]
    exact fun h => h.symm
  | some (c :: cs) =>
    simp only [assertStr, Except.ok.injEq, Option.some.injEq, ne_eq]
    constructor
    · rintro rfl; exact ⟨rfl, by simp⟩
    · exact fun h => h.1

theorem assertStr_error (o : Option (List Char)) (e : PyErr) (h : assertStr o = .error e) :
    e = .assertionError := by
  match o with
  | none => simp [assertStr] at h; exact h.symm
  | some [] => simp [assertStr] at h; exact h.symm
  | some (c :: cs) => simp [assertStr] at h

theorem parseFile_ok (d d' : Tree) (f : List Char) (h : parseFile d f = .ok d') :
    HasPT f ∧ ∃ p t c i, Under f p t c i ∧ d' = insertFile d p t c i f := by
  unfold parseFile at h
  split at h
  · simp at h
  · rename_i v hv
    split at h
    · simp at h
    · rename_i t ht
      split at h
      · simp at h
      · rename_i p hp
        rw [assertStr_ok] at ht hp
        simp only [Except.ok.injEq] at h
        exact ⟨⟨v, p, t, hv, hp.1, ht.1, hp.2, ht.2⟩, p, t, _, _,
          ⟨v, hv, hp.1, ht.1, (strOpt_prints _ _).1 rfl, (strOpt_prints _ _).1 rfl⟩, h.symm⟩

theorem parseFile_of_hasPT (d : Tree) (f : List Char) (h : HasPT f) :
    ∃ d', parseFile d f = .ok d' := by
  obtain ⟨v, p, t, hv, hp, ht, hp0, ht0⟩ := h
  unfold parseFile
  simp only [hv, (assertStr_ok _ _).2 ⟨hp, hp0⟩, (assertStr_ok _ _).2 ⟨ht, ht0⟩]
  exact ⟨_, rfl⟩

theorem parseFile_missing (d : Tree) (f : List Char) (v : Variables) (hv : fromFilename f = .ok v)
    (h : ¬ HasPT f) : parseFile d f = .error .assertionError := by
  unfold parseFile
  simp only [hv]
  cases ht : assertStr v.temperature with
  | error e => rw [assertStr_error _ _ ht]
  | ok t =>
    simp only
    cases hp : assertStr v.pressure with
    | error e => rw [assertStr_error _ _ hp]
    | ok p =>
      rw [assertStr_ok] at ht hp
      exact absurd ⟨v, p, t, hv, hp.1, ht.1, hp.2, ht.2⟩ h

theorem under_unique (f p t c i p' t' c' i' : List Char) (h : Under f p t c i)
    (h' : Under f p' t' c' i') : p = p' ∧ t = t' ∧ c = c' ∧ i = i' := by
  obtain ⟨v, hv, h1, h2, h3, h4⟩ := h
  obtain ⟨v', hv', h1', h2', h3', h4'⟩ := h'
  rw [hv] at hv'
  simp only [Except.ok.injEq] at hv'
  subst hv'
  rw [h1] at h1'
  rw [h2] at h2'
  rw [← strOpt_prints] at h3 h4 h3' h4'
  simp only [Option.some.injEq] at h1' h2'
  exact ⟨h1', h2', h3 ▸ h3', h4 ▸ h4'⟩

theorem parseFiles_lookup (fs : List (List Char)) : ∀ (d d' : Tree),
    parseFiles d fs = .ok d' → ∀ p t c i f,
      (Tree.lookup d' p t c i = some f ↔
        (∃ pre post, fs = pre ++ f :: post ∧ Under f p t c i ∧
          ∀ g ∈ post, ¬ Under g p t c i) ∨
        ((∀ g ∈ fs, ¬ Under g p t c i) ∧ Tree.lookup d p t c i = some f)) := by
  induction fs with
  | nil =>
    intro d d' h p t c i f
    simp only [parseFiles, Except.ok.injEq] at h
    subst h
    simp
  | cons g fs ih =>
    intro d d' h p t c i f
    unfold parseFiles at h
    split at h
    · rename_i d1 h1
      obtain ⟨_, pg, tg, cg, ig, hu, rfl⟩ := parseFile_ok _ _ _ h1
      rw [ih _ _ h p t c i f, lookup_insert]
      constructor
      · rintro (⟨pre, post, rfl, hf, hpost⟩ | ⟨hno, hl⟩)
        · exact Or.inl ⟨g :: pre, post, rfl, hf, hpost⟩
        · split at hl
          · rename_i heq
            obtain ⟨rfl, rfl, rfl, rfl⟩ := heq
            simp only [Option.some.injEq] at hl
            subst hl
            exact Or.inl ⟨[], fs, rfl, hu, hno⟩
          · rename_i hne
            refine Or.inr ⟨?_, hl⟩
            intro u hu' hun
            rcases List.mem_cons.1 hu' with rfl | hu'
            · exact hne (under_unique _ _ _ _ _ _ _ _ _ hu hun)
            · exact hno u hu' hun
      · rintro (⟨pre, post, heq, hf, hpost⟩ | ⟨hno, hl⟩)
        · cases pre with
          | nil =>
            simp only [List.nil_append, List.cons.injEq] at heq
            obtain ⟨rfl, rfl⟩ := heq
            exact Or.inr ⟨hpost, by rw [if_pos (under_unique _ _ _ _ _ _ _ _ _ hu hf)]⟩
          | cons q pre =>
            simp only [List.cons_append, List.cons.injEq] at heq
            exact Or.inl ⟨pre, post, heq.2, hf, hpost⟩
        · refine Or.inr ⟨fun u hu' => hno u (List.mem_cons_of_mem _ hu'), ?_⟩
          rw [if_neg]
          · exact hl
          · rintro ⟨rfl, rfl, rfl, rfl⟩
            exact hno g (by simp) hu
    · simp at h

theorem parseFiles_ok_iff (fs : List (List Char)) : ∀ d,
    (∃ d', parseFiles d fs = .ok d') ↔ ∀ f ∈ fs, HasPT f := by
  induction fs with
  | nil => intro d; simp [parseFiles]
  | cons f fs ih =>
    intro d
    unfold parseFiles
    constructor
    · rintro ⟨d', h⟩
      split at h
      · rename_i d1 h1
        intro g hg
        rcases List.mem_cons.1 hg with rfl | hg
        · exact (parseFile_ok _ _ _ h1).1
        · exact (ih d1).1 ⟨d', h⟩ g hg
      · simp at h
    · intro h
      obtain ⟨d1, h1⟩ := parseFile_of_hasPT d f (h f (by simp))
      rw [h1]
      exact (ih d1).2 fun g hg => h g (List.mem_cons_of_mem _ hg)

theorem parseFiles_error (pre : List (List Char)) : ∀ (d : Tree) (f : List Char)
    (post : List (List Char)) (e : PyErr), (∀ g ∈ pre, HasPT g) →
    (∀ d, parseFile d f = .error e) → parseFiles d (pre ++ f :: post) = .error e := by
  induction pre with
  | nil =>
    intro d f post e _ h
    simp only [List.nil_append, parseFiles, h d]
  | cons g pre ih =>
    intro d f post e hp h
    obtain ⟨d1, h1⟩ := parseFile_of_hasPT d g (hp g (by simp))
    simp only [List.cons_append, parseFiles, h1]
    exact ih d1 f post e (fun u hu => hp u (List.mem_cons_of_mem _ hu)) h

/-! ## `__dict__` -/

theorem get?_update (old : Attrs) : ∀ (d : Attrs) (k : String), (old.map Prod.fst).Nodup →
    Dict.get? (update d old) k =
      match Dict.get? old k with
      | some v => some v
      | none => Dict.get? d k := by
  induction old with
  | nil => intro d k _; rfl
  | cons q old ih =>
    intro d k hn
    obtain ⟨a, b⟩ := q
    simp only [List.map_cons, List.nodup_cons] at hn
    simp only [update]
    rw [ih _ _ hn.2]
    simp only [Dict.get?]
    by_cases h : a = k
    · subst h
      have : Dict.get? old a = none := by
        cases hg : Dict.get? old a with
        | none => rfl
        | some v =>
          exact absurd (List.mem_map_of_mem (f := Prod.fst) (Dict.mem_of_get? _ _ _ hg)) hn.1
      simp [this, Dict.get?_set]
    · simp [h, Dict.get?_set]

theorem nodup_setAttr (d : Attrs) (k : String) (v : Val) (h : (d.map Prod.fst).Nodup) :
    ((setAttr d k v).1.map Prod.fst).Nodup := by
  unfold setAttr
  split
  · split
    · exact Dict.nodup_set _ _ _ h
    · exact h
  · split
    · split
      · exact h
      · split
        · exact Dict.nodup_set _ _ _ h
        · exact h
    · exact Dict.nodup_set _ _ _ h

theorem erase_sublist (d : Attrs) (k : String) : (Dict.erase d k).Sublist d := by
  induction d with
  | nil => exact List.Sublist.refl _
  | cons q d ih =>
    obtain ⟨a, b⟩ := q
    simp only [Dict.erase]
    split
    · exact ih.cons _
    · exact ih.cons_cons _

theorem nodup_delAttr (d : Attrs) (k : String) (h : (d.map Prod.fst).Nodup) :
    ((delAttr d k).1.map Prod.fst).Nodup := by
  unfold delAttr
  split
  · exact h
  · exact h.sublist ((erase_sublist d k).map _)

theorem nodup_setAll (kw : List (String × Val)) : ∀ (d : Attrs), (d.map Prod.fst).Nodup →
    ((setAll d kw).1.map Prod.fst).Nodup := by
  induction kw with
  | nil => intro d h; exact h
  | cons q kw ih =>
    intro d h
    obtain ⟨k, v⟩ := q
    simp only [setAll]
    have h1 := nodup_setAttr d k v h
    generalize setAttr d k v = r at h1
    obtain ⟨d', e⟩ := r
    cases e with
    | none => exact ih d' h1
    | some e => exact h1

theorem nodup_update (old : Attrs) : ∀ (d : Attrs), (d.map Prod.fst).Nodup →
    ((update d old).map Prod.fst).Nodup := by
  induction old with
  | nil => intro d h; exact h
  | cons q old ih =>
    intro d h
    obtain ⟨k, v⟩ := q
    exact ih _ (Dict.nodup_set _ _ _ h)

/-- Whatever runs, the attributes remain a dictionary. -/
theorem nodup_exec (s : Stmt) : ∀ (d : Attrs), (d.map Prod.fst).Nodup →
    ((exec s d).1.map Prod.fst).Nodup := by
  induction s with
  | skip => intro d h; exact h
  | assign k v => intro d h; exact nodup_setAttr d k v h
  | delete k => intro d h; exact nodup_delAttr d k h
  | raise e => intro d h; exact h
  | seq a b iha ihb =>
    intro d h
    have h1 := iha d h
    simp only [exec]
    generalize exec a d = r at h1
    obtain ⟨d', e⟩ := r
    cases e with
    | none => exact ihb d' h1
    | some e => exact h1
  | attempt a b iha ihb =>
    intro d h
    have h1 := iha d h
    simp only [exec]
    generalize exec a d = r at h1
    obtain ⟨d', e⟩ := r
    cases e with
    | none => exact h1
    | some e => exact ihb d' h1
  | context kw body ih =>
    intro d h
    have h1 := nodup_setAll kw d h
    simp only [exec]
    generalize setAll d kw = r at h1
    obtain ⟨d1, e⟩ := r
    cases e with
    | some e => exact h1
    | none =>
      have h2 := ih d1 h1
      simp only
      generalize exec body d1 = r at h2
      obtain ⟨d2, e⟩ := r
      cases e with
      | none => exact nodup_update d d2 h2
      | some e => exact h2

end Verif.Names
