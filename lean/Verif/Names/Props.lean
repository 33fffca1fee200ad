import Verif.Names.MoreLemmas
/-!
# Properties C55-C58 and C81: file names, directories and temporary parameters
-/

namespace Verif.Names

open Verif.Text

/-! ## C55: the name of a file and reading it back -/

/-- C55, proved part.  Full statement: for non-negative temperature and pressure, any plain space
group or none, and any of the prefixes, reading the written name gives back temperature and
pressure rounded to two decimals and the space group.  Proved here for space groups that do not
start with `P`, `T` or `ID`; without a space group see `C55_no_group_partial`; the rest is false,
see `C55_group_refuted` and `C55_no_group_refuted`. -/
theorem C55_round_trip_partial (p : Params) (pre : Option (List Char)) (hpre : KnownPrefix pre)
    (hP : 0 ≤ p.pressure) (hT : 0 ≤ p.temperature) (sg : List Char)
    (hsg : p.spaceGroup = some sg) (hname : SpaceGroupName sg) :
    ∃ r s rt st, RoundedTo2 p.temperature r ∧ RoundedTo2 p.pressure s ∧
      DecimalText rt r ∧ DecimalText st s ∧
      fromFilename (p.filename pre) = .ok
        { temperature := some rt, pressure := some st, crystal := some sg, iterationId := none } ∧
      ∀ float, ReadsDecimals float → ∀ q,
        setFilenameVars float (p.filename pre) q =
          ({ q with temperature := r, pressure := s, spaceGroup := some sg }, none) := by
  obtain ⟨r, hr, hrt⟩ := fmt2_text p.temperature hT
  obtain ⟨s, hs, hst⟩ := fmt2_text p.pressure hP
  have hgiv : Gives sg .crystal sg := ⟨rfl, hname.2⟩
  have hfrom : fromFilename (p.filename pre) = .ok
      { temperature := some (fmt2 p.temperature), pressure := some (fmt2 p.pressure),
        crystal := some sg, iterationId := none } := by
    rw [fromFilename_written p pre hpre hP hT
      (fun w hw => by rw [hsg] at hw; simp only [Option.mem_def, Option.some.injEq] at hw
                      exact hw ▸ hname.1)]
    rw [pieces_eq, items_mol, hsg, Option.toList_some]
    exact items_crystals _ (by
      intro w hw
      rcases List.mem_append.1 hw with hw | hw
      · exact (optPieces_crystal _ (Or.inl rfl) _ w hw).1
      · exact (optPieces_crystal _ (Or.inr rfl) _ w hw).1) sg hgiv _
  refine ⟨r, s, _, _, hr, hs, hrt, hst, hfrom, ?_⟩
  intro float hfl q
  unfold setFilenameVars
  simp only [hfrom, setFloat, hfl _ _ hrt, hfl _ _ hst]

/-- C55 without a space group: the trimer keeps it that way (and no inertia scale or harmonic force
in the name). -/
theorem C55_no_group_partial (p : Params) (pre : Option (List Char)) (hpre : KnownPrefix pre)
    (hP : 0 ≤ p.pressure) (hT : 0 ≤ p.temperature) (hsg : p.spaceGroup = none)
    (hm : p.molecule = .trimer) (hI : p.momentInertiaScale = none) (hK : p.harmonicForce = none) :
    ∃ r s rt st, RoundedTo2 p.temperature r ∧ RoundedTo2 p.pressure s ∧
      DecimalText rt r ∧ DecimalText st s ∧
      fromFilename (p.filename pre) = .ok
        { temperature := some rt, pressure := some st, crystal := none, iterationId := none } ∧
      ∀ float, ReadsDecimals float → ∀ q,
        setFilenameVars float (p.filename pre) q =
          ({ q with temperature := r, pressure := s }, none) := by
  obtain ⟨r, hr, hrt⟩ := fmt2_text p.temperature hT
  obtain ⟨s, hs, hst⟩ := fmt2_text p.pressure hP
  have hfrom : fromFilename (p.filename pre) = .ok
      { temperature := some (fmt2 p.temperature), pressure := some (fmt2 p.pressure),
        crystal := none, iterationId := none } := by
    rw [fromFilename_written p pre hpre hP hT (by simp [hsg])]
    rw [pieces_eq, items_mol, hsg, hI, hK, hm]
    rfl
  refine ⟨r, s, _, _, hr, hs, hrt, hst, hfrom, ?_⟩
  intro float hfl q
  unfold setFilenameVars
  simp only [hfrom, setFloat, hfl _ _ hrt, hfl _ _ hst]

/-- Reading digits, a dot and two digits. -/
def readDecimal (s : List Char) : Option ℚ :=
  match s.reverse with
  | b :: a :: _ :: ds => some (digitsValue (ds.reverse.map fun c => c.toNat - 48) +
      (10 * (a.toNat - 48) + (b.toNat - 48) : ℕ) / 100)
  | _ => none

/-- There is a `float` as assumed. -/
theorem readDecimal_reads : ReadsDecimals readDecimal := by
  rintro s q ⟨ds, a, b, _, h2, ha, hb, rfl, rfl⟩
  have key : ∀ d, d < 10 → (Char.ofNat (48 + d)).toNat - 48 = d := by
    intro d hd
    interval_cases d <;> decide
  unfold readDecimal
  have : (ds.map (fun d => Char.ofNat (48 + d)) ++
      ['.', Char.ofNat (48 + a), Char.ofNat (48 + b)]).reverse =
      Char.ofNat (48 + b) :: Char.ofNat (48 + a) :: '.' ::
        (ds.map (fun d => Char.ofNat (48 + d))).reverse := by simp
  rw [this]
  simp only [List.reverse_reverse, List.map_map, key a ha, key b hb]
  have hm : ds.map ((fun c => c.toNat - 48) ∘ fun d => Char.ofNat (48 + d)) = ds := by
    conv_rhs => rw [← List.map_id ds]
    exact List.map_congr_left fun d hd => key d (h2 d hd)
  rw [hm]

/-- The parameters of the examples: `Trimer-P13.50-T0.40-p2.gsd`. -/
def exampleParams : Params :=
  { temperature := 2 / 5, pressure := 27 / 2, molecule := .trimer, momentInertiaScale := none,
    harmonicForce := some (-1), spaceGroup := some "p2".toList, output := "data/run".toList }

example : SpaceGroupName "p2".toList :=
  ⟨⟨by decide, by decide⟩, by decide, by decide, by decide, by decide⟩

example : ∃ r s, RoundedTo2 (2 / 5) r ∧ RoundedTo2 (27 / 2) s ∧
    setFilenameVars readDecimal (exampleParams.filename (some "dump".toList)) exampleParams =
      ({ exampleParams with temperature := r, pressure := s }, none) := by
  obtain ⟨r, s, _, _, hr, hs, _, _, _, h⟩ := C55_round_trip_partial exampleParams
    (some "dump".toList) (Or.inr (Or.inl rfl)) (by norm_num [exampleParams])
    (by norm_num [exampleParams]) "p2".toList rfl
    ⟨⟨by decide, by decide⟩, by decide, by decide, by decide, by decide⟩
  exact ⟨r, s, hr, hs, h _ readDecimal_reads _⟩

/-- C55 is false for a space group starting with `P`: it is read as the pressure and there is no
crystal (or, for molecules not starting with `T` or `P`, the crystal is the molecule). -/
theorem C55_group_refuted :
    ∃ (p : Params) (sg : List Char), 0 ≤ p.pressure ∧ 0 ≤ p.temperature ∧
      p.spaceGroup = some sg ∧ Plain sg ∧ sg ≠ [] ∧
      ∃ v, fromFilename (p.filename none) = .ok v ∧ v.crystal = none ∧
        ∀ q, ¬ ∃ st, v.pressure = some st ∧ DecimalText st q := by
  refine ⟨{ exampleParams with spaceGroup := some "P2".toList, harmonicForce := none }, "P2".toList,
    by norm_num [exampleParams], by norm_num [exampleParams], rfl, ⟨by decide, by decide⟩,
    by decide, ⟨some (fmt2 exampleParams.temperature), some "2".toList, none, none⟩, ?_, rfl, ?_⟩
  · rw [fromFilename_written _ _ (Or.inl rfl) (by norm_num [exampleParams])
      (by norm_num [exampleParams]) (by
        intro w hw
        simp only [Option.mem_def, Option.some.injEq] at hw
        subst hw
        exact ⟨by decide, by decide⟩)]
    rw [pieces_eq, items_mol]
    rfl
  · rintro q ⟨st, h, ds, a, b, h1, _, _, _, h3, _⟩
    simp only [Option.some.injEq] at h
    subst h
    have := congrArg List.length h3
    simp at this

/-- `Disc-P13.50-T0.40.gsd`. -/
def discParams : Params :=
  { temperature := 2 / 5, pressure := 27 / 2, molecule := .disc, momentInertiaScale := none,
    harmonicForce := none, spaceGroup := none, output := "data/run".toList }

/-- C55 is false without a space group for the other molecules: `Disc-P13.50-T0.40.gsd` has the
crystal `Disc`, and `set_filename_vars` sets the space group to it. -/
theorem C55_no_group_refuted :
    ∃ (p : Params), 0 ≤ p.pressure ∧ 0 ≤ p.temperature ∧ p.spaceGroup = none ∧
      ∃ v, fromFilename (p.filename none) = .ok v ∧ v.crystal = some "Disc".toList ∧
        ∀ float, ReadsDecimals float →
          (setFilenameVars float (p.filename none) p).1.spaceGroup = some "Disc".toList := by
  have hp : fromFilename (discParams.filename none) = .ok ⟨some (fmt2 discParams.temperature),
        some (fmt2 discParams.pressure), some "Disc".toList, none⟩ := by
    rw [fromFilename_written _ _ (Or.inl rfl) (by norm_num [discParams])
      (by norm_num [discParams]) (by simp [discParams])]
    rw [pieces_eq, items_mol]
    rfl
  refine ⟨discParams, by norm_num [discParams], by norm_num [discParams], rfl, _, hp, rfl, ?_⟩
  intro float hfl
  obtain ⟨r, _, hr⟩ := fmt2_text discParams.temperature (by norm_num [discParams])
  obtain ⟨s, _, hs⟩ := fmt2_text discParams.pressure (by norm_num [discParams])
  unfold setFilenameVars
  simp only [hp, setFloat, hfl _ _ hr, hfl _ _ hs]

/-! ## C56: the order of the fields -/

theorem dropPrefix_append (x : List Char) (xs ys : List (List Char)) :
    dropPrefix (x :: xs ++ ys) = dropPrefix (x :: xs) ++ ys := by
  simp only [List.cons_append, dropPrefix]
  split <;> rfl

/-- C56.  Two names that agree in what precedes the fields (`head`, the prefix and the molecule)
and whose fields are the same in different order, no kind of field occurring twice, give the same
variables (or raise the same exception). -/
theorem C56_order (dir x : List Char) (head fields fields' : List (List Char)) (ext : List Char)
    (hx : x ≠ []) (hhead : ∀ w ∈ x :: head, Plain w) (hfields : ∀ w ∈ fields, Plain w)
    (hext : Extension ext) (hperm : fields.Perm fields')
    (hdistinct : fields.Pairwise fun u w => ∀ k a b, Gives u k a → ¬ Gives w k b) :
    fromFilename (namedPath dir (x :: head ++ fields) ext) =
      fromFilename (namedPath dir (x :: head ++ fields') ext) := by
  have hsplit : ∀ fs : List (List Char), (∀ w ∈ fs, Plain w) →
      splitOn '-' (stem (pathName (namedPath dir (x :: head ++ fs) ext))) = x :: head ++ fs := by
    intro fs hfs
    rw [List.cons_append]
    refine pieces_of_named _ _ _ _ hx ?_ hext
    intro w hw
    rw [← List.cons_append] at hw
    rcases List.mem_append.1 hw with hw | hw
    · exact hhead w hw
    · exact hfs w hw
  have hfields' : ∀ w ∈ fields', Plain w := fun w hw => hfields w (hperm.mem_iff.2 hw)
  unfold fromFilename
  simp only [hsplit fields hfields, hsplit fields' hfields', dropPrefix_append,
    List.length_append, hperm.length_eq]
  split
  · rfl
  · rw [items_append, items_append]
    cases Variables.items Variables.empty (dropPrefix (x :: head)) with
    | error e => rfl
    | ok v =>
      simp only
      by_cases h0 : [] ∈ fields
      · rw [items_error _ _ h0, items_error _ _ (hperm.mem_iff.1 h0)]
      · have h0' : [] ∉ fields' := fun h => h0 (hperm.mem_iff.2 h)
        have hdistinct' : fields'.Pairwise fun u w => ∀ k a b, Gives u k a → ¬ Gives w k b :=
          hperm.pairwise hdistinct (fun {u w} h k a b hw hu => h k b a hu hw)
        obtain ⟨v1, h1, hv1⟩ := items_get fields v h0
        obtain ⟨v2, h2, hv2⟩ := items_get fields' v h0'
        rw [h1, h2]
        congr 1
        apply variables_ext
        intro k
        have key : ∀ (fs : List (List Char)),
            (fs.Pairwise fun u w => ∀ k a b, Gives u k a → ¬ Gives w k b) → ∀ a,
            ((∃ pre w post, fs = pre ++ w :: post ∧ Gives w k a ∧ ∀ u ∈ post, ∀ y, ¬ Gives u k y) ↔
              ∃ w ∈ fs, Gives w k a) := by
          intro fs hfs a
          constructor
          · rintro ⟨pre, w, post, rfl, hw, _⟩
            exact ⟨w, by simp, hw⟩
          · rintro ⟨w, hw, hg⟩
            obtain ⟨pre, post, rfl⟩ := List.append_of_mem hw
            refine ⟨pre, w, post, rfl, hg, ?_⟩
            intro u hu y hy
            rw [List.pairwise_append] at hfs
            exact (List.pairwise_cons.1 hfs.2.1).1 u hu k a y hg hy
        refine Option.ext fun a => ?_
        rw [hv1 k a, hv2 k a, key _ hdistinct, key _ hdistinct']
        simp only [hperm.mem_iff]

example : fromFilename (namedPath "d".toList
      ("Trimer".toList :: [] ++ ["P1.00".toList, "T0.40".toList, "ID1".toList, "p2".toList])
      "gsd".toList) =
    fromFilename (namedPath "d".toList
      ("Trimer".toList :: [] ++ ["p2".toList, "ID1".toList, "T0.40".toList, "P1.00".toList])
      "gsd".toList) := by decide

example : fromFilename "d/dump-Trimer-P1.00-T0.40-ID1-p2.gsd".toList =
    .ok ⟨some "0.40".toList, some "1.00".toList, some "p2".toList, some "1".toList⟩ := by decide

/-! ## C81: the variables come from the fields -/

/-- C81, proved part.  Full statement: each variable of a name is the value of the last field of
its kind after the molecule name, and unknown when there is none.  Proved here for the kinds
the molecule name itself does not look like; the rest is false, see `C81_refuted`. -/
theorem C81_last_field_partial (dir mol : List Char) (fields : List (List Char))
    (ext : List Char) (hmol : mol ≠ []) (hpre : mol ∉ prefixes) (hplain : Plain mol)
    (hfields : ∀ w ∈ fields, Plain w ∧ w ≠ []) (hext : Extension ext) (hlen : 2 ≤ fields.length)
    (k : Kind) (hk : ∀ a, ¬ Gives mol k a) :
    ∃ v, fromFilename (namedPath dir (mol :: fields) ext) = .ok v ∧
      (∀ a, v.get k = some a ↔ ∃ pre w post, fields = pre ++ w :: post ∧ Gives w k a ∧
        ∀ u ∈ post, ∀ b, ¬ Gives u k b) := by
  unfold fromFilename
  rw [pieces_of_named dir mol fields ext hmol (by
    intro w hw
    rcases List.mem_cons.1 hw with rfl | hw
    · exact hplain
    · exact (hfields w hw).1) hext]
  simp only [dropPrefix, if_neg hpre]
  rw [if_neg (by simp only [List.length_cons]; omega)]
  obtain ⟨v, hv, hget⟩ := items_get (mol :: fields) Variables.empty (by
    intro h
    rcases List.mem_cons.1 h with h | h
    · exact hmol h.symm
    · exact (hfields _ h).2 rfl)
  refine ⟨v, hv, fun a => ?_⟩
  rw [hget k a]
  constructor
  · rintro (⟨pre, w, post, heq, hg, hpost⟩ | ⟨_, h⟩)
    · cases pre with
      | nil =>
        simp only [List.nil_append, List.cons.injEq] at heq
        rw [← heq.1] at hg
        exact absurd hg (hk a)
      | cons q pre =>
        simp only [List.cons_append, List.cons.injEq] at heq
        exact ⟨pre, w, post, heq.2, hg, hpost⟩
    · cases k <;> simp [Variables.get, Variables.empty] at h
  · rintro ⟨pre, w, post, rfl, hg, hpost⟩
    exact Or.inl ⟨mol :: pre, w, post, rfl, hg, hpost⟩

example : ∀ a, ¬ Gives "Trimer".toList .crystal a ∧ ¬ Gives "Trimer".toList .pressure a ∧
    ¬ Gives "Trimer".toList .iterationId a := by
  intro a
  refine ⟨?_, ?_, ?_⟩
  · rintro ⟨_, _, _, h, _⟩
    exact h (by decide)
  · intro h; simp [Gives] at h
  · intro h; simp [Gives] at h

/-- C81 is false: a trimer without a temperature in its name has the temperature `rimer`, and
reading it into the parameters raises ValueError; a disc has the crystal `Disc`. -/
theorem C81_refuted :
    fromFilename "run/Trimer-P1.00-p2.gsd".toList =
      .ok ⟨some "rimer".toList, some "1.00".toList, some "p2".toList, none⟩ ∧
    fromFilename "run/Disc-P1.00-T0.40.gsd".toList =
      .ok ⟨some "0.40".toList, some "1.00".toList, some "Disc".toList, none⟩ ∧
    (∀ float : List Char → Option ℚ, float "rimer".toList = none → ∀ p,
      setFilenameVars float "run/Trimer-P1.00-p2.gsd".toList p = (p, some .valueError)) := by
  refine ⟨by decide, by decide, ?_⟩
  intro float hf p
  have h : fromFilename "run/Trimer-P1.00-p2.gsd".toList =
    .ok ⟨some "rimer".toList, some "1.00".toList, some "p2".toList, none⟩ := by decide
  unfold setFilenameVars
  rw [h]
  simp only [setFloat, hf]

/-! ## C57: temporary parameters -/

/-- C57, proved part.  Full statement: after the `with` block, however it is left, every attribute
has the value it had before.  Proved here for a block that is left without an exception, whatever
it did: the attributes are the old ones, apart from attributes that were created inside.  The rest
is false, see `C57_exception_refuted` and `C57_enter_refuted`. -/
theorem C57_restores_partial (d d' : Attrs) (hd : (d.map Prod.fst).Nodup)
    (kwargs : List (String × Val)) (body : Stmt)
    (h : exec (.context kwargs body) d = (d', none)) :
    (∀ k v, Dict.get? d k = some v → Dict.get? d' k = some v) ∧
      ∃ d1 d2, setAll d kwargs = (d1, none) ∧ exec body d1 = (d2, none) ∧
        ∀ k, Dict.get? d k = none → Dict.get? d' k = Dict.get? d2 k := by
  unfold exec at h
  split at h
  · simp at h
  · rename_i d1 hset
    split at h
    · rename_i d2 hbody
      simp only [Prod.mk.injEq, and_true] at h
      subst h
      refine ⟨fun k v hk => ?_, d1, d2, hset, hbody, fun k hk => ?_⟩
      · rw [get?_update d d2 k hd, hk]
      · rw [get?_update d d2 k hd, hk]
    · simp at h

/-- Code that touches the object only inside `with` blocks. -/
inductive ContextsOnly : Stmt → Prop
  | skip : ContextsOnly .skip
  | seq {a b : Stmt} : ContextsOnly a → ContextsOnly b → ContextsOnly (.seq a b)
  | context (kw : List (String × Val)) (body : Stmt) : ContextsOnly (.context kw body)

/-- C57 for any sequence of contexts (with arbitrary blocks, nested ones included): run to the end
without an exception, they leave every attribute as it was. -/
theorem C57_sequence_partial (s : Stmt) (hs : ContextsOnly s) : ∀ (d d' : Attrs),
    (d.map Prod.fst).Nodup → exec s d = (d', none) →
    ∀ k v, Dict.get? d k = some v → Dict.get? d' k = some v := by
  induction hs with
  | skip =>
    intro d d' _ h k v hk
    simp only [exec, Prod.mk.injEq, and_true] at h
    exact h ▸ hk
  | @seq a b _ _ iha ihb =>
    intro d d' hd h k v hk
    simp only [exec] at h
    have hn := nodup_exec a d hd
    split at h
    · rename_i d1 h1
      rw [h1] at hn
      exact ihb d1 d' hn h k v (iha d d1 hd h1 k v hk)
    · simp at h
  | context kw body =>
    intro d d' hd h
    exact (C57_restores_partial d d' hd _ _ h).1

/-- The parameters used in the examples. -/
def someAttrs : Attrs := [("temperature", .num (2 / 5)), ("pressure", .num (27 / 2)),
  ("_infile", .none)]

example : (exec (.context [("temperature", .num 1), ("infile", .str "a.gsd".toList)]
    (.seq (.assign "pressure" (.num 2)) (.seq (.delete "temperature")
      (.context [("pressure", .num 3)] (.assign "infile" (.str "b".toList)))))) someAttrs).2 = none :=
  rfl

example : (someAttrs.map Prod.fst).Nodup := by decide

/-- What deleting an attribute in a block does: AttributeError, and no change, for one that is not there and for the
three properties; otherwise it is gone and the others stay. -/
theorem C57_delete (d : Attrs) (k : String) :
    ((Dict.get? d k = none ∨ k = "infile" ∨ k = "outfile" ∨ k = "output") →
      exec (.delete k) d = (d, some .attributeError)) ∧
    (¬ (Dict.get? d k = none ∨ k = "infile" ∨ k = "outfile" ∨ k = "output") →
      (exec (.delete k) d).2 = none ∧ Dict.get? (exec (.delete k) d).1 k = none ∧
        ∀ k', k' ≠ k → Dict.get? (exec (.delete k) d).1 k' = Dict.get? d k') := by
  have hm : Dict.mem d k = false ↔ Dict.get? d k = none := by
    simp [Dict.mem]
  refine ⟨fun h => ?_, fun h => ?_⟩
  · simp only [exec, delAttr]
    rw [if_pos]
    rw [hm]
    simp only [List.mem_cons, List.not_mem_nil, or_false]
    tauto
  · have hn : ¬ (k ∈ ["infile", "outfile", "output"] ∨ Dict.mem d k = false) := by
      rw [hm]
      simp only [List.mem_cons, List.not_mem_nil, or_false]
      tauto
    simp only [exec, delAttr, if_neg hn, true_and]
    refine ⟨by rw [Dict.get?_erase, if_pos rfl], fun k' hk' => ?_⟩
    rw [Dict.get?_erase, if_neg (Ne.symm hk')]

example : Dict.get? someAttrs "new" = none ∧
    ¬ (Dict.get? someAttrs "temperature" = none ∨ "temperature" = "infile" ∨ "temperature" = "outfile" ∨
      "temperature" = "output") := by decide

/-- C57 is false when an exception leaves the block: the temporary value stays. -/
theorem C57_exception_refuted :
    ∃ (d : Attrs) (kwargs : List (String × Val)) (body : Stmt), (d.map Prod.fst).Nodup ∧
      Dict.get? d "temperature" = some (.num (2 / 5)) ∧
      Dict.get? (exec (.attempt (.context kwargs body) .skip) d).1 "temperature" =
        some (.num 1) :=
  ⟨someAttrs, [("temperature", .num 1)], .raise .valueError, by decide, rfl, rfl⟩

/-- C57 is also false when entering fails: `infile=None` raises TypeError after `temperature` was
already changed. -/
theorem C57_enter_refuted :
    ∃ (d : Attrs) (kwargs : List (String × Val)), (d.map Prod.fst).Nodup ∧
      Dict.get? d "temperature" = some (.num (2 / 5)) ∧
      (exec (.context kwargs .skip) d).2 = some .typeError ∧
      Dict.get? (exec (.context kwargs .skip) d).1 "temperature" = some (.num 1) :=
  ⟨someAttrs, [("temperature", .num 1), ("infile", .none)], by decide, rfl, rfl, rfl⟩

/-- Attributes created inside the block stay, as the values of line 129 are only those of the old
dictionary. -/
theorem C57_created_stays : ∃ (d : Attrs) (kwargs : List (String × Val)),
    (exec (.context kwargs .skip) d).2 = none ∧ Dict.get? d "new" = none ∧
      Dict.get? (exec (.context kwargs .skip) d).1 "new" = some (.num 1) :=
  ⟨someAttrs, [("new", .num 1)], rfl, rfl, rfl⟩

/-! ## C58: directories -/

/-- C58.  The entry under the given variables is the last of the files with these variables. -/
theorem C58_entries (files : List (List Char)) (d : Tree) (h : parseDirectory files = .ok d)
    (p t c i f : List Char) :
    Tree.lookup d p t c i = some f ↔
      ∃ pre post, files = pre ++ f :: post ∧ Under f p t c i ∧ ∀ g ∈ post, ¬ Under g p t c i := by
  rw [parseFiles_lookup files [] d h p t c i f]
  constructor
  · rintro (h | ⟨_, h⟩)
    · exact h
    · simp [Tree.lookup, Dict.get?] at h
  · exact Or.inl

/-- C58.  Every file is present unless a later file has the same variables. -/
theorem C58_present (files : List (List Char)) (d : Tree) (h : parseDirectory files = .ok d)
    (f : List Char) (hf : f ∈ files) :
    ∃ p t c i g, Under f p t c i ∧ Tree.lookup d p t c i = some g ∧
      (g = f ∨ ∃ pre mid post, files = pre ++ f :: mid ++ g :: post) := by
  obtain ⟨v, p, t, hv, hp, ht, _⟩ := ((parseFiles_ok_iff files []).1 ⟨d, h⟩) f hf
  have hu : Under f p t (strOpt v.crystal) (strOpt v.iterationId) :=
    ⟨v, hv, hp, ht, (strOpt_prints _ _).1 rfl, (strOpt_prints _ _).1 rfl⟩
  refine ⟨p, t, strOpt v.crystal, strOpt v.iterationId, ?_⟩
  obtain ⟨pre, post, rfl⟩ := List.append_of_mem hf
  have key : ∀ (post : List (List Char)), (∃ a g b, post = a ++ g :: b ∧
      Under g p t (strOpt v.crystal) (strOpt v.iterationId) ∧
      ∀ u ∈ b, ¬ Under u p t (strOpt v.crystal) (strOpt v.iterationId)) ∨
      ∀ u ∈ post, ¬ Under u p t (strOpt v.crystal) (strOpt v.iterationId) := by
    intro post
    induction post with
    | nil => right; simp
    | cons x post ih =>
      rcases ih with ⟨a, g, b, rfl, hg, hb⟩ | ih
      · exact Or.inl ⟨x :: a, g, b, rfl, hg, hb⟩
      · by_cases hx : Under x p t (strOpt v.crystal) (strOpt v.iterationId)
        · exact Or.inl ⟨[], x, post, rfl, hx, ih⟩
        · right
          intro u hu
          rcases List.mem_cons.1 hu with rfl | hu
          · exact hx
          · exact ih u hu
  rcases key post with ⟨a, g, b, rfl, hg, hb⟩ | hno
  · refine ⟨g, hu, ?_, Or.inr ⟨pre, a, b, by simp⟩⟩
    rw [C58_entries _ d h]
    exact ⟨pre ++ f :: a, b, by simp, hg, hb⟩
  · refine ⟨f, hu, ?_, Or.inl rfl⟩
    rw [C58_entries _ d h]
    exact ⟨pre, post, rfl, hu, hno⟩

/-- C58.  The directory is read exactly when every name gives a pressure and a temperature. -/
theorem C58_succeeds (files : List (List Char)) :
    (∃ d, parseDirectory files = .ok d) ↔ ∀ f ∈ files, HasPT f :=
  parseFiles_ok_iff files []

/-- C58, proved part of the last clause.  Full statement: a file without pressure or temperature
raises AssertionError.  Proved for names the reader finds no pressure or temperature in; a trimer
is never among them, see `C58_missing_refuted`. -/
theorem C58_missing_partial (pre post : List (List Char)) (f : List Char) (v : Variables)
    (hpre : ∀ g ∈ pre, HasPT g) (hv : fromFilename f = .ok v) (hf : ¬ HasPT f) :
    parseDirectory (pre ++ f :: post) = .error .assertionError :=
  parseFiles_error pre [] f post _ hpre fun d => parseFile_missing d f v hv hf

/-- Two files of the same conditions: the later one is kept, and both have an entry. -/
example : ∃ d, parseDirectory ["a/Trimer-P1.00-T0.40.gsd".toList, "b/Trimer-P1.00-T0.40.gsd".toList] = .ok d ∧
    Tree.lookup d "1.00".toList "0.40".toList "None".toList "None".toList = some "b/Trimer-P1.00-T0.40.gsd".toList ∧
    (∃ p t c i g, Under "a/Trimer-P1.00-T0.40.gsd".toList p t c i ∧ Tree.lookup d p t c i = some g) ∧
    ∀ f ∈ ["a/Trimer-P1.00-T0.40.gsd".toList, "b/Trimer-P1.00-T0.40.gsd".toList], HasPT f := by
  obtain ⟨d, hd, hl⟩ : ∃ d, parseDirectory ["a/Trimer-P1.00-T0.40.gsd".toList, "b/Trimer-P1.00-T0.40.gsd".toList] =
      .ok d ∧ Tree.lookup d "1.00".toList "0.40".toList "None".toList "None".toList =
        some "b/Trimer-P1.00-T0.40.gsd".toList := ⟨_, rfl, by decide⟩
  obtain ⟨p, t, c, i, g, h1, h2, -⟩ := C58_present _ d hd "a/Trimer-P1.00-T0.40.gsd".toList (by simp)
  exact ⟨d, hd, hl, ⟨p, t, c, i, g, h1, h2⟩, (C58_succeeds _).1 ⟨d, hd⟩⟩

/-- C58, last clause: a trimer without temperature is accepted, under the temperature `rimer`. -/
theorem C58_missing_refuted :
    (parseDirectory ["run/Trimer-P1.00-p2.gsd".toList]).map
        (fun d => Tree.lookup d "1.00".toList "rimer".toList "p2".toList "None".toList) =
      .ok (some "run/Trimer-P1.00-p2.gsd".toList) := by decide

example : HasPT "a/Trimer-P1.00-T0.40.gsd".toList :=
  ⟨⟨some "0.40".toList, some "1.00".toList, none, none⟩, "1.00".toList, "0.40".toList,
    by decide, rfl, rfl, by decide, by decide⟩

example : ¬ HasPT "a/Disc-P1.00-p2.gsd".toList := by
  rintro ⟨v, p, t, hv, _, ht, _⟩
  have h : fromFilename "a/Disc-P1.00-p2.gsd".toList =
    .ok ⟨none, some "1.00".toList, some "p2".toList, none⟩ := by decide
  rw [h] at hv
  simp only [Except.ok.injEq] at hv
  subst hv
  simp at ht

/-- Two files with the same variables: the later one is kept. -/
example : (parseDirectory ["a/Trimer-P1.00-T0.40-p2.gsd".toList,
      "a/dump-Trimer-T0.40-P1.00-p2.gsd".toList]).map
        (fun d => Tree.lookup d "1.00".toList "0.40".toList "p2".toList "None".toList) =
      .ok (some "a/dump-Trimer-T0.40-P1.00-p2.gsd".toList) := by decide

end Verif.Names
