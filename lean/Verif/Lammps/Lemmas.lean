import Mathlib.Tactic.Linarith
import Verif.TextLemmas
import Verif.Lammps.Spec
/-!
# Helper lemmas for the lammps reader
-/

namespace Verif.Lammps

open Verif.Text

variable {F : Type}

/-! ## joining and splitting -/

theorem splitOn_joinSp : ∀ (ws : List (List Char)) (tail : List Char), ws ≠ [] →
    (∀ w ∈ ws, ' ' ∉ w) → ' ' ∉ tail →
    splitOn ' ' (joinSp ws ++ tail) = ws.dropLast ++ [ws.getLastD [] ++ tail] := by
  intro ws
  induction ws with
  | nil => intro tail h; simp at h
  | cons w ws ih =>
    intro tail _ hw ht
    cases ws with
    | nil =>
      have h1 : ' ' ∉ w ++ tail := by
        rw [List.mem_append, not_or]; exact ⟨hw w (by simp), ht⟩
      simp [joinSp, splitOn_word ' ' _ h1]
    | cons w' ws =>
      rw [joinSp, List.append_assoc, List.cons_append, splitOn_word_sep ' ' w _ (hw w (by simp)),
        ih tail (by simp) (fun x hx => hw x (List.mem_cons_of_mem _ hx)) ht]
      simp

theorem joinSp_no_nl : ∀ (ws : List (List Char)), (∀ w ∈ ws, '\n' ∉ w) → '\n' ∉ joinSp ws := by
  intro ws
  induction ws with
  | nil => intro _; simp [joinSp]
  | cons w ws ih =>
    intro h
    cases ws with
    | nil => simpa [joinSp] using h w (by simp)
    | cons w' ws =>
      rw [joinSp]
      have h1 := h w (by simp)
      have h2 := ih (fun x hx => h x (List.mem_cons_of_mem _ hx))
      simp only [List.mem_append, List.mem_cons, not_or]
      exact ⟨h1, by decide, h2⟩

theorem joinSp_getLast : ∀ (ws : List (List Char)), (∀ w ∈ ws, Word w) →
    ∀ c, (joinSp ws).getLast? = some c → isSpace c = false := by
  intro ws
  induction ws with
  | nil => intro _ c h; simp [joinSp] at h
  | cons w ws ih =>
    intro h c hc
    cases ws with
    | nil => exact (h w (by simp)).2 c (List.mem_of_getLast? hc)
    | cons w' ws =>
      rw [joinSp] at hc
      apply ih (fun x hx => h x (List.mem_cons_of_mem _ hx)) c
      have hne : joinSp (w' :: ws) ≠ [] := by
        have hw' := (h w' (by simp)).1
        cases ws with
        | nil => simpa [joinSp] using hw'
        | cons a b => simp [joinSp]
      rw [List.getLast?_append, List.getLast?_cons] at hc
      cases hj : (joinSp (w' :: ws)).getLast? with
      | none => rw [List.getLast?_eq_none_iff] at hj; exact absurd hj hne
      | some d => rw [hj] at hc; simpa using hc

theorem Word.no_nl {w : List Char} (h : Word w) : '\n' ∉ w := fun hm => by
  have := h.2 _ hm; simp [isSpace] at this

theorem Word.no_sp {w : List Char} (h : Word w) : ' ' ∉ w := fun hm => by
  have := h.2 _ hm; simp [isSpace] at this

/-! ## rows -/

theorem setCell_mid (pre post : Dict (List Char) (List (Option F))) (h : List Char)
    (c : List (Option F)) (i : Nat) (v : F) (hpre : h ∉ pre.map Prod.fst) :
    setCell (pre ++ (h, c) :: post) h i v = pre ++ (h, c.set i (some v)) :: post := by
  have hget : Dict.get? (pre ++ (h, c) :: post) h = some c := by
    induction pre with
    | nil => simp [Dict.get?]
    | cons p pre ih =>
      rw [List.map_cons, List.mem_cons, not_or] at hpre
      rw [List.cons_append, Dict.get?, if_neg (Ne.symm hpre.1)]
      exact ih hpre.2
  have hset : ∀ x, Dict.set (pre ++ (h, c) :: post) h x = pre ++ (h, x) :: post := by
    intro x
    clear hget
    induction pre with
    | nil => simp [Dict.set]
    | cons p pre ih =>
      rw [List.map_cons, List.mem_cons, not_or] at hpre
      rw [List.cons_append, Dict.set, if_neg (Ne.symm hpre.1), ih hpre.2]
      rfl
  unfold setCell
  rw [hget, hset]
  rfl

theorem writeRow_eq (float : List Char → Option F) (n i : Nat) (hi : i < n) :
    ∀ (hs : List (List Char)) (pre : Dict (List Char) (List (Option F)))
    (cs : List (List (Option F))) (ws : List (List Char)) (vs : List F),
    hs.Nodup → (∀ h ∈ hs, h ∉ pre.map Prod.fst) → cs.length = hs.length → vs.length = hs.length →
    hs.length ≤ ws.length → (∀ j, j < hs.length → (ws[j]?).bind float = vs[j]?) →
    writeRow float n (i : Int) (pre ++ hs.zip cs) (hs.zip ws) =
      .ok (pre ++ hs.zip (List.zipWith (fun c v => c.set i (some v)) cs vs)) := by
  intro hs
  induction hs with
  | nil => intro pre cs ws vs _ _ _ _ _ _; simp [writeRow]
  | cons h hs ih =>
    intro pre cs ws vs hnd hdis hcs hvs hws hfl
    obtain ⟨c, cs, rfl⟩ : ∃ c cs', cs = c :: cs' := by
      cases cs with
      | nil => simp at hcs
      | cons c cs => exact ⟨c, cs, rfl⟩
    obtain ⟨v, vs, rfl⟩ : ∃ c cs', vs = c :: cs' := by
      cases vs with
      | nil => simp at hvs
      | cons c cs => exact ⟨c, cs, rfl⟩
    obtain ⟨w, ws, rfl⟩ : ∃ c cs', ws = c :: cs' := by
      cases ws with
      | nil => simp at hws
      | cons c cs => exact ⟨c, cs, rfl⟩
    have h0 := hfl 0 (by simp)
    simp at h0
    rw [List.nodup_cons] at hnd
    have hidx : npIndex n (i : Int) = some i := by
      unfold npIndex
      rw [if_pos ⟨by omega, by omega⟩]
      simp
    rw [List.zip_cons_cons, List.zip_cons_cons, writeRow, h0]
    simp only [hidx]
    rw [setCell_mid pre _ h c i v (hdis h (by simp))]
    have := ih (pre ++ [(h, c.set i (some v))]) cs ws vs hnd.2 (by
        intro h' hh'
        rw [List.map_append, List.mem_append, not_or]
        refine ⟨hdis h' (List.mem_cons_of_mem _ hh'), ?_⟩
        simp
        rintro rfl
        exact hnd.1 hh') (by simpa using hcs) (by simpa using hvs) (by simpa using hws) (by
        intro j hj
        have := hfl (j + 1) (by simpa using hj)
        simpa using this)
    rw [List.append_assoc, List.singleton_append] at this
    rw [this]
    simp

/-- The columns when the atoms `done` have been read. -/
def colsOf (f : FrameText F) (done : List Nat) : List (List (Option F)) :=
  (List.range f.headings.length).map (fun j =>
    (List.range f.numAtoms).map (fun i => if i ∈ done then some (f.cell i j).2 else none))

theorem colsOf_step (f : FrameText F) (done : List Nat) (i : Nat) (hi : i < f.numAtoms) :
    List.zipWith (fun c v => c.set i (some v)) (colsOf f done)
      ((List.range f.headings.length).map (fun j => (f.cell i j).2)) = colsOf f (i :: done) := by
  unfold colsOf
  rw [List.zipWith_map]
  rw [List.zipWith_self]
  apply List.map_congr_left
  intro j _
  apply List.ext_getElem?
  intro k
  rw [List.getElem?_set]
  by_cases hk : k < f.numAtoms
  · rw [List.getElem?_map, List.getElem?_map, List.getElem?_range hk]
    by_cases hik : i = k
    · subst hik
      simp [hi]
    · have : ¬ k = i := fun e => hik e.symm
      simp [hik, this]
  · have : ¬ i = k := by omega
    rw [if_neg this]
    rw [List.getElem?_eq_none (by simp; omega), List.getElem?_eq_none (by simp; omega)]

theorem row_words (float : List Char → Option F) (hfloat : ∀ w, float (w ++ ['\n']) = float w)
    (f : FrameText F) (hv : f.Valid float) (i : Nat) (rest : List Char) :
    readline (f.row i ++ rest) = (f.row i, rest) ∧
    f.headings.length ≤ (splitOn ' ' (f.row i)).length ∧
    ∀ j, j < f.headings.length → ∃ w, (splitOn ' ' (f.row i))[j]? = some w ∧
      float w = some (f.cell i j).2 ∧ pyInt w = pyInt (f.cell i j).1 := by
  set ws := (List.range f.headings.length).map (fun j => (f.cell i j).1) ++ f.extra i with hws
  have hpiece : ∀ w ∈ ws, '\n' ∉ w ∧ ' ' ∉ w := by
    intro w hw
    rw [hws, List.mem_append] at hw
    rcases hw with hw | hw
    · obtain ⟨j, _, rfl⟩ := List.mem_map.1 hw
      exact ⟨(hv.cell_word i j).no_nl, (hv.cell_word i j).no_sp⟩
    · exact hv.extra_piece i w hw
  have hrow : f.row i = joinSp ws ++ ['\n'] := rfl
  have hpos : 0 < f.headings.length := List.length_pos_of_mem hv.heading_id
  have hlen : f.headings.length ≤ ws.length := by rw [hws]; simp
  have hne : ws ≠ [] := by
    intro h
    have h2 : ws.length = 0 := by rw [h]; rfl
    omega
  refine ⟨?_, ?_, ?_⟩
  · rw [hrow, List.append_assoc]
    exact readline_line _ _ (joinSp_no_nl _ (fun w hw => (hpiece w hw).1))
  · rw [hrow, splitOn_joinSp ws _ hne (fun w hw => (hpiece w hw).2) (by decide)]
    simp
    omega
  · intro j hj
    rw [hrow, splitOn_joinSp ws _ hne (fun w hw => (hpiece w hw).2) (by decide)]
    have hwj : ws[j]? = some (f.cell i j).1 := by
      rw [hws, List.getElem?_append_left (by simpa using hj), List.getElem?_map,
        List.getElem?_range hj]
      rfl
    by_cases hlast : j < ws.length - 1
    · refine ⟨(f.cell i j).1, ?_, hv.cell_float i j, rfl⟩
      rw [List.getElem?_append_left (by simpa using hlast), List.getElem?_dropLast, if_pos hlast,
        hwj]
    · have hj' : j = ws.length - 1 := by omega
      refine ⟨(f.cell i j).1 ++ ['\n'], ?_, ?_, ?_⟩
      · rw [List.getElem?_append_right (by simp; omega)]
        simp only [List.length_dropLast, hj', Nat.sub_self, List.getElem?_cons_zero]
        congr 2
        rw [← hj', ← Option.some_inj, ← hwj, List.getLastD_eq_getLast?, List.getLast?_eq_getElem?,
          ← hj', hwj]
        rfl
      · rw [hfloat]; exact hv.cell_float i j
      · exact pyInt_append_nl _

theorem readRows_eq (float : List Char → Option F) (hfloat : ∀ w, float (w ++ ['\n']) = float w)
    (f : FrameText F) (hv : f.Valid float) (idCol : Nat)
    (hid : f.headings[idCol]? = some "id".toList) (rest : List Char) :
    ∀ (order done : List Nat), (∀ i ∈ order, i < f.numAtoms) →
    readRows float f.headings idCol f.numAtoms order.length (order.flatMap f.row ++ rest)
      (f.headings.zip (colsOf f done)) =
      .ok (f.headings.zip (colsOf f (order.reverse ++ done)), rest) := by
  intro order
  induction order with
  | nil => intro done _; simp [readRows]
  | cons i order ih =>
    intro done hlt
    have hi := hlt i (by simp)
    obtain ⟨h1, h2, h3⟩ := row_words float hfloat f hv i (order.flatMap f.row ++ rest)
    have hidlt : idCol < f.headings.length := (List.getElem?_eq_some_iff.1 hid).1
    rw [List.length_cons, List.flatMap_cons, List.append_assoc, readRows, h1]
    obtain ⟨w, hw, _, hwi⟩ := h3 idCol hidlt
    simp only [hw, hwi, hv.cell_id i idCol hid]
    rw [show ((i : Int) + 1 - 1) = i by omega]
    have hwr := writeRow_eq float f.numAtoms i hi f.headings [] (colsOf f done)
      (splitOn ' ' (f.row i)) ((List.range f.headings.length).map (fun j => (f.cell i j).2))
      hv.heading_nodup (by simp) (by simp [colsOf]) (by simp) h2 (by
        intro j hj
        obtain ⟨w, hw, hwf, _⟩ := h3 j hj
        rw [hw, List.getElem?_map, List.getElem?_range hj]
        simpa using hwf)
    rw [List.nil_append, List.nil_append, colsOf_step f done i hi] at hwr
    rw [hwr]
    simp only
    rw [ih (i :: done) (fun k hk => hlt k (List.mem_cons_of_mem _ hk))]
    simp

/-! ## the frame -/

theorem readBound_eq [Sub F] (float : List Char → Option F) (f : FrameText F) (hv : f.Valid float)
    (a : Fin 3) (rest : List Char) :
    readBound float (f.boundLine a ++ rest) = .ok ((f.bound a).2.1.2 - (f.bound a).1.2, rest) := by
  obtain ⟨hw1, hw2⟩ := hv.bound_word a
  obtain ⟨hf1, hf2⟩ := hv.bound_float a
  obtain ⟨ht1, ht2⟩ := hv.bound_tail a
  unfold FrameText.boundLine
  set lo := (f.bound a).1.1
  set hi := (f.bound a).2.1.1
  set tl := (f.bound a).2.2
  have hline : readline ((lo ++ ' ' :: hi ++ tl ++ ['\n']) ++ rest) =
      (lo ++ ' ' :: hi ++ tl ++ ['\n'], rest) := by
    rw [List.append_assoc]
    apply readline_line
    have h1 := hw1.no_nl
    have h2 := hw2.no_nl
    have h3 : '\n' ∉ tl := ht1
    simp only [List.mem_append, List.mem_cons, not_or]
    exact ⟨⟨h1, by decide, h2⟩, h3⟩
  have hsplit : ∃ more, splitWs (lo ++ ' ' :: hi ++ tl ++ ['\n']) = lo :: hi :: more := by
    obtain ⟨c, r, hcr, hc⟩ : ∃ c r, tl ++ ['\n'] = c :: r ∧ isSpace c = true := by
      cases htl : tl with
      | nil => exact ⟨'\n', [], rfl, by decide⟩
      | cons c r => exact ⟨c, r ++ ['\n'], rfl, ht2 c (by rw [htl]; rfl)⟩
    refine ⟨splitWs r, ?_⟩
    rw [List.append_assoc, hcr, List.append_assoc, List.cons_append,
      splitWs_word_space lo _ ' ' hw1.1 hw1.2 (by decide),
      splitWs_word_space hi _ c hw2.1 hw2.2 hc]
  obtain ⟨more, hmore⟩ := hsplit
  unfold readBound
  simp only [hline, hmore, List.getElem?_cons_succ, List.getElem?_cons_zero, hf1, hf2]

theorem foldl_set_eq (hs : List (List Char)) (x : List (Option F)) :
    ∀ (d : Dict (List Char) (List (Option F))), hs.Nodup → (∀ h ∈ hs, h ∉ d.map Prod.fst) →
    hs.foldl (fun d h => Dict.set d h x) d = d ++ hs.map (fun h => (h, x)) := by
  induction hs with
  | nil => intro d _ _; simp
  | cons h hs ih =>
    intro d hnd hdis
    rw [List.nodup_cons] at hnd
    have hset : ∀ (d : Dict (List Char) (List (Option F))), h ∉ d.map Prod.fst →
        Dict.set d h x = d ++ [(h, x)] := by
      intro d
      induction d with
      | nil => intro _; rfl
      | cons p d ih =>
        intro hp
        rw [List.map_cons, List.mem_cons, not_or] at hp
        rw [Dict.set, if_neg (Ne.symm hp.1), ih hp.2]
        rfl
    rw [List.foldl_cons, hset d (hdis h (by simp)), ih _ hnd.2]
    · simp
    · intro h' hh'
      rw [List.map_append, List.mem_append, not_or]
      refine ⟨hdis h' (List.mem_cons_of_mem _ hh'), ?_⟩
      simp
      rintro rfl
      exact hnd.1 hh'

theorem zip_range_map {β : Type} (hs : List (List Char)) (g : Nat → β) :
    hs.zip ((List.range hs.length).map g) =
      (List.range hs.length).map (fun j => (hs.getD j [], g j)) := by
  apply List.ext_getElem
  · simp
  · intro j h1 h2
    simp at h1
    simp [h1]

theorem idColumn_spec (hs : List (List Char)) (h : "id".toList ∈ hs) :
    ∃ i, idColumn hs = some i ∧ hs[i]? = some "id".toList := by
  unfold idColumn
  cases hf : hs.findIdx? (fun x => decide (x = "id".toList)) with
  | none =>
    rw [List.findIdx?_eq_none_iff] at hf
    have := hf _ h
    simp at this
  | some i =>
    refine ⟨i, rfl, ?_⟩
    rw [List.findIdx?_eq_some_iff_getElem] at hf
    obtain ⟨h1, h2, _⟩ := hf
    rw [List.getElem?_eq_getElem h1]
    simpa using h2

/-- Reading a well formed atoms section. -/
theorem readAtoms_eq [Sub F] (float : List Char → Option F)
    (hfloat : ∀ w, float (w ++ ['\n']) = float w) (f : FrameText F) (hv : f.Valid float) (t : Int)
    (box : List F) (rest : List Char) :
    readAtoms float t f.numAtoms box
      ((joinSp ("ITEM:".toList :: "ATOMS".toList :: f.headings) ++ f.headingsTail ++ ['\n']) ++
        (f.order.flatMap f.row ++ rest)) =
      .ok (⟨t, box, f.value.cols⟩, rest) := by
  have hwords : ∀ w ∈ "ITEM:".toList :: "ATOMS".toList :: f.headings, Word w := by
    intro w hw
    simp only [List.mem_cons] at hw
    rcases hw with rfl | rfl | hw
    · exact ⟨by decide, by decide⟩
    · exact ⟨by decide, by decide⟩
    · exact hv.heading_word w hw
  have hline : readline ((joinSp ("ITEM:".toList :: "ATOMS".toList :: f.headings) ++ f.headingsTail
      ++ ['\n']) ++ (f.order.flatMap f.row ++ rest)) =
      (joinSp ("ITEM:".toList :: "ATOMS".toList :: f.headings) ++ f.headingsTail ++ ['\n'],
        f.order.flatMap f.row ++ rest) := by
    rw [List.append_assoc]
    apply readline_line
    rw [List.mem_append, not_or]
    refine ⟨joinSp_no_nl _ (fun w hw => (hwords w hw).no_nl), ?_⟩
    intro hm
    have := hv.headingsTail _ hm
    revert this; decide
  have hj : joinSp ("ITEM:".toList :: "ATOMS".toList :: f.headings) =
      "ITEM: ATOMS".toList ++ (match f.headings with | [] => [] | h :: hs => ' ' :: joinSp (h :: hs)) := by
    cases f.headings with
    | nil => rfl
    | cons h hs => rfl
  have hsub : hasSub "ITEM: ATOMS".toList
      (joinSp ("ITEM:".toList :: "ATOMS".toList :: f.headings) ++ f.headingsTail ++ ['\n']) = true := by
    rw [hasSub_iff, hj, List.append_assoc, List.append_assoc]
    exact (List.prefix_append _ _).isInfix
  have hstrip : strip (joinSp ("ITEM:".toList :: "ATOMS".toList :: f.headings) ++ f.headingsTail
      ++ ['\n']) = joinSp ("ITEM:".toList :: "ATOMS".toList :: f.headings) := by
    rw [List.append_assoc, strip_append_spaces]
    · apply strip_eq_self
      · intro c hc
        rw [hj] at hc
        have : c = 'I' := by
          have hh : ("ITEM: ATOMS".toList ++ (match f.headings with | [] => [] | h :: hs => ' ' :: joinSp (h :: hs))).head? = some 'I' := rfl
          rw [hh] at hc
          exact (Option.some_inj.1 hc).symm
        subst this
        decide
      · exact joinSp_getLast _ hwords
    · intro c hc
      rw [List.mem_append] at hc
      rcases hc with hc | hc
      · rw [hv.headingsTail c hc]; decide
      · simp at hc; subst hc; decide
  have hsplit : splitOn ' ' (joinSp ("ITEM:".toList :: "ATOMS".toList :: f.headings)) =
      "ITEM:".toList :: "ATOMS".toList :: f.headings := by
    have := splitOn_joinSp ("ITEM:".toList :: "ATOMS".toList :: f.headings) [] (by simp)
      (fun w hw => (hwords w hw).no_sp) (by simp)
    rw [List.append_nil, List.append_nil] at this
    rw [this]
    have hne : ("ITEM:".toList :: "ATOMS".toList :: f.headings) ≠ [] := by simp
    rw [List.getLastD_eq_getLast?, List.getLast?_eq_some_getLast hne]
    exact List.dropLast_append_getLast hne
  obtain ⟨idCol, hid1, hid2⟩ := idColumn_spec f.headings hv.heading_id
  have hempty : f.headings.foldl (fun d h => Dict.set d h (List.replicate f.numAtoms none)) [] =
      f.headings.zip (colsOf f []) := by
    rw [foldl_set_eq f.headings _ [] hv.heading_nodup (by simp), List.nil_append]
    unfold colsOf
    rw [zip_range_map]
    apply List.ext_getElem
    · simp
    · intro j h1 h2
      simp at h1
      simp [h1]
  have horder : f.order.length = f.numAtoms := by
    rw [hv.order_perm.length_eq, List.length_range]
  have hrows := readRows_eq float hfloat f hv idCol hid2 rest f.order [] (by
    intro i hi
    exact List.mem_range.1 (hv.order_perm.subset hi))
  rw [horder] at hrows
  unfold readAtoms
  simp only [hline, hsub, Bool.true_eq_false, if_false, hstrip, hsplit, List.drop_succ_cons,
    List.drop_zero, hid1, Int.toNat_natCast]
  rw [if_neg (by omega), hempty, hrows]
  simp only [Except.ok.injEq, Prod.mk.injEq, and_true, LFrame.mk.injEq, true_and]
  unfold colsOf
  rw [zip_range_map]
  unfold FrameText.value
  simp only
  apply List.map_congr_left
  intro j _
  congr 1
  apply List.map_congr_left
  intro i hi
  rw [if_pos]
  rw [List.append_nil, List.mem_reverse]
  exact hv.order_perm.symm.subset hi

theorem strip_word_nl (w : List Char) (hw : Word w) : strip (w ++ ['\n']) = w := by
  rw [strip_append_space _ _ (by decide)]
  exact strip_of_all w hw.2

theorem readBox_eq [Sub F] (float : List Char → Option F)
    (hfloat : ∀ w, float (w ++ ['\n']) = float w) (f : FrameText F) (hv : f.Valid float) (t : Int)
    (rest : List Char) :
    readBox float t f.numAtoms
      ("ITEM: BOX BOUNDS".toList ++ f.boundsTail ++ '\n' ::
        (f.boundLine 0 ++ (f.boundLine 1 ++ (f.boundLine 2 ++
        (joinSp ("ITEM:".toList :: "ATOMS".toList :: f.headings) ++ f.headingsTail ++ ['\n'] ++
        (f.order.flatMap f.row ++ rest)))))) =
      .ok (⟨t, f.value.box, f.value.cols⟩, rest) := by
  unfold readBox
  rw [readline_line _ _ (by
    rw [List.mem_append, not_or]
    exact ⟨by decide, hv.boundsTail⟩)]
  have hsub : hasSub "ITEM: BOX BOUNDS".toList
      ("ITEM: BOX BOUNDS".toList ++ f.boundsTail ++ ['\n']) = true := by
    rw [hasSub_iff, List.append_assoc]
    exact (List.prefix_append _ _).isInfix
  simp only [hsub, Bool.true_eq_false, if_false, readBound_eq float f hv]
  rw [readAtoms_eq float hfloat f hv]
  rfl

/-- Reading a well formed frame. -/
theorem readFrame_eq [Sub F] (float : List Char → Option F)
    (hfloat : ∀ w, float (w ++ ['\n']) = float w) (f : FrameText F) (hv : f.Valid float)
    (rest : List Char) : readFrame float (f.write ++ rest) = .ok (f.value, rest) := by
  have hw : f.write ++ rest = "ITEM: TIMESTEP".toList ++ '\n' :: (f.timestepText ++ '\n' ::
    ("ITEM: NUMBER OF ATOMS".toList ++ '\n' :: (f.numAtomsText ++ '\n' ::
    ("ITEM: BOX BOUNDS".toList ++ f.boundsTail ++ '\n' ::
        (f.boundLine 0 ++ (f.boundLine 1 ++ (f.boundLine 2 ++
        (joinSp ("ITEM:".toList :: "ATOMS".toList :: f.headings) ++ f.headingsTail ++ ['\n'] ++
        (f.order.flatMap f.row ++ rest))))))))) := by
    have e1 : "ITEM: TIMESTEP\n".toList = "ITEM: TIMESTEP".toList ++ ['\n'] := rfl
    have e2 : "ITEM: NUMBER OF ATOMS\n".toList = "ITEM: NUMBER OF ATOMS".toList ++ ['\n'] := rfl
    unfold FrameText.write FrameText.header
    rw [e1, e2]
    simp only [List.append_assoc, List.cons_append, List.nil_append]
  rw [hw]
  unfold readFrame
  rw [readline_line _ _ (by decide)]
  rw [if_neg (fun h => h rfl)]
  simp only
  rw [readline_line _ _ hv.timestep_word.no_nl]
  simp only
  rw [strip_word_nl _ hv.timestep_word, hv.timestep_int]
  simp only
  unfold readNum
  rw [readline_line _ _ (by decide)]
  rw [if_neg (fun h => h rfl)]
  simp only
  rw [readline_line _ _ hv.numAtoms_word.no_nl]
  simp only
  rw [strip_word_nl _ hv.numAtoms_word, hv.numAtoms_int]
  simp only
  rw [readBox_eq float hfloat f hv]
  rfl

/-! ## the loop -/

theorem readRows_length (float : List Char → Option F) (hs : List (List Char)) (idCol n : Nat) :
    ∀ (k : Nat) (src : List Char) (cols : Dict (List Char) (List (Option F))) (out) (rest),
    readRows float hs idCol n k src cols = .ok (out, rest) → rest.length ≤ src.length := by
  intro k
  induction k with
  | zero =>
    intro src cols out rest h
    simp only [readRows, Except.ok.injEq, Prod.mk.injEq] at h
    rw [h.2]
  | succ k ih =>
    intro src cols out rest h
    rw [readRows] at h
    split at h
    · simp at h
    · split at h
      · simp at h
      · split at h
        · simp at h
        · exact (ih _ _ _ _ h).trans (readline_length src)

theorem readBound_length [Sub F] (float : List Char → Option F) (src rest : List Char) (b : F)
    (h : readBound float src = .ok (b, rest)) : rest.length ≤ src.length := by
  unfold readBound at h
  simp only at h
  repeat' split at h
  all_goals first
    | (simp only [Except.ok.injEq, Prod.mk.injEq] at h; rw [← h.2]; exact readline_length src)
    | simp at h

theorem readAtoms_length [Sub F] (float : List Char → Option F) (t n : Int) (box : List F)
    (src rest : List Char) (f : LFrame F) (h : readAtoms float t n box src = .ok (f, rest)) :
    rest.length ≤ src.length := by
  unfold readAtoms at h
  simp only at h
  split at h
  · simp at h
  split at h
  · simp at h
  split at h
  · simp at h
  split at h
  · simp at h
  rename_i hr
  simp only [Except.ok.injEq, Prod.mk.injEq] at h
  rw [← h.2]
  exact (readRows_length _ _ _ _ _ _ _ _ _ hr).trans (readline_length src)

theorem readBox_length [Sub F] (float : List Char → Option F) (t n : Int)
    (src rest : List Char) (f : LFrame F) (h : readBox float t n src = .ok (f, rest)) :
    rest.length ≤ src.length := by
  unfold readBox at h
  split at h
  · simp at h
  split at h
  · simp at h
  split at h
  · simp at h
  split at h
  · simp at h
  rename_i h1 _ _ _ h2 _ _ _ h3
  have := readBound_length _ _ _ _ h1
  have := readBound_length _ _ _ _ h2
  have := readBound_length _ _ _ _ h3
  have := readAtoms_length _ _ _ _ _ _ _ h
  have := readline_length src
  omega

theorem readNum_length [Sub F] (float : List Char → Option F) (t : Int)
    (src rest : List Char) (f : LFrame F) (h : readNum float t src = .ok (f, rest)) :
    rest.length ≤ src.length := by
  unfold readNum at h
  split at h
  · simp at h
  split at h
  · simp at h
  have := readBox_length _ _ _ _ _ _ h
  have := readline_length src
  have := readline_length (readline src).2
  omega

theorem readFrame_length [Sub F] (float : List Char → Option F) (src rest : List Char)
    (f : LFrame F) (hne : src ≠ []) (h : readFrame float src = .ok (f, rest)) :
    rest.length < src.length := by
  unfold readFrame at h
  split at h
  · simp at h
  split at h
  · simp at h
  have := readNum_length _ _ _ _ _ h
  have := readline_length_lt src hne
  have := readline_length (readline src).2
  omega

/-- The fuel is never used up. -/
theorem parseFuel_enough [Sub F] (float : List Char → Option F) : ∀ (n : Nat) (src : List Char)
    (fuel : Nat), src.length ≤ n → n < fuel → parseFuel float fuel src = parseLammps float src := by
  have key : ∀ (n : Nat) (src : List Char) (fuel fuel' : Nat), src.length ≤ n → src.length < fuel →
      src.length < fuel' → parseFuel float fuel src = parseFuel float fuel' src := by
    intro n
    induction n with
    | zero =>
      intro src fuel fuel' h1 h2 h3
      have : src = [] := List.length_eq_zero_iff.1 (by omega)
      subst this
      obtain ⟨a, rfl⟩ : ∃ a, fuel = a + 1 := ⟨fuel - 1, by simp at h2; omega⟩
      obtain ⟨b, rfl⟩ : ∃ a, fuel' = a + 1 := ⟨fuel' - 1, by simp at h3; omega⟩
      simp [parseFuel]
    | succ n ih =>
      intro src fuel fuel' h1 h2 h3
      obtain ⟨a, rfl⟩ : ∃ a, fuel = a + 1 := ⟨fuel - 1, by omega⟩
      obtain ⟨b, rfl⟩ : ∃ a, fuel' = a + 1 := ⟨fuel' - 1, by omega⟩
      rw [parseFuel, parseFuel]
      by_cases hs : src = []
      · rw [if_pos hs, if_pos hs]
      · rw [if_neg hs, if_neg hs]
        cases hr : readFrame float src with
        | error e => rfl
        | ok q =>
          obtain ⟨f, rest⟩ := q
          have hl := readFrame_length float src rest f hs hr
          simp only
          rw [ih rest a b (by omega) (by omega) (by omega)]
  intro n src fuel h1 h2
  exact key n src fuel (src.length + 1) h1 (by omega) (by omega)

/-- One turn of the loop. -/
theorem parseLammps_cons [Sub F] (float : List Char → Option F) (src rest : List Char)
    (f : LFrame F) (hne : src ≠ []) (h : readFrame float src = .ok (f, rest)) :
    parseLammps float src = (f :: (parseLammps float rest).1, (parseLammps float rest).2) := by
  have hl := readFrame_length float src rest f hne h
  conv_lhs => unfold parseLammps
  rw [parseFuel, if_neg hne, h]
  simp only
  rw [parseFuel_enough float rest.length rest src.length le_rfl hl]

/-- Good frames followed by anything. -/
theorem parseLammps_append [Sub F] (float : List Char → Option F)
    (hfloat : ∀ w, float (w ++ ['\n']) = float w) (tail : List Char) :
    ∀ (fs : List (FrameText F)), (∀ f ∈ fs, f.Valid float) →
    parseLammps float (fs.flatMap FrameText.write ++ tail) =
      (fs.map FrameText.value ++ (parseLammps float tail).1, (parseLammps float tail).2) := by
  intro fs
  induction fs with
  | nil => intro _; simp
  | cons f fs ih =>
    intro hv
    have hne : f.write ++ (fs.flatMap FrameText.write ++ tail) ≠ [] :=
      List.append_ne_nil_of_left_ne_nil (List.append_ne_nil_of_left_ne_nil
        (List.append_ne_nil_of_left_ne_nil (by decide) _) _) _
    rw [List.flatMap_cons, List.append_assoc,
      parseLammps_cons float _ _ _ hne
        (readFrame_eq float hfloat f (hv f (by simp)) _),
      ih (fun g hg => hv g (List.mem_cons_of_mem _ hg))]
    simp

theorem parseLammps_error [Sub F] (float : List Char → Option F) (src : List Char) (e : PyErr)
    (hne : src ≠ []) (h : readFrame float src = .error e) :
    parseLammps float src = ([], some (convertErr e)) := by
  unfold parseLammps
  rw [parseFuel, if_neg hne, h]

theorem parseLammps_nil [Sub F] (float : List Char → Option F) :
    parseLammps float [] = ([], none) := rfl

/-! ## numbers -/

theorem natGo_append (d : Nat) (hd : d < 10) : ∀ (w : List Char) (v : Nat) (b : Bool) (n : Nat),
    natGo v b w = some n → w ≠ [] → natGo v b (w ++ [Char.ofNat (48 + d)]) = some (n * 10 + d) := by
  intro w
  induction w with
  | nil => intro v b n _ h; simp at h
  | cons c w ih =>
    intro v b n h _
    rw [List.cons_append, natGo]
    rw [natGo] at h
    have hend : ∀ v' b', natGo v' b' w = some n →
        natGo v' b' (w ++ [Char.ofNat (48 + d)]) = some (n * 10 + d) := by
      intro v' b' h'
      by_cases hw : w = []
      · subst hw
        rw [natGo] at h'
        split at h'
        · simp only [Option.some.injEq] at h'
          subst h'
          rw [List.nil_append, natGo, digitVal_digit d hd]
          simp [natGo]
        · simp at h'
      · exact ih v' b' n h' hw
    cases hc : digitVal c with
    | some x => rw [hc] at h; exact hend _ _ h
    | none =>
      rw [hc] at h
      simp only at h ⊢
      split at h
      · rename_i hcond
        rw [if_pos hcond]
        exact hend _ _ h
      · simp at h

theorem showNat_ne (n : Nat) : showNat n ≠ [] := by
  rw [showNat]; split <;> simp

theorem showNat_digits (n : Nat) : ∀ c ∈ showNat n, ∃ d, d < 10 ∧ c = Char.ofNat (48 + d) := by
  induction n using Nat.strong_induction_on with
  | _ n ih =>
    intro c hc
    rw [showNat] at hc
    split at hc
    · rename_i h
      simp at hc
      exact ⟨n, h, hc⟩
    · rw [List.mem_append] at hc
      rcases hc with hc | hc
      · exact ih (n / 10) (by omega) c hc
      · simp at hc
        exact ⟨n % 10, by omega, hc⟩

theorem natGo_showNat (n : Nat) : natGo 0 false (showNat n) = some n := by
  induction n using Nat.strong_induction_on with
  | _ n ih =>
    rw [showNat]
    split
    · rename_i h
      rw [natGo, digitVal_digit n h]
      simp [natGo]
    · rw [natGo_append (n % 10) (by omega) _ _ _ (n / 10) (ih _ (by omega)) (showNat_ne _)]
      congr 1
      omega

theorem showNat_word (n : Nat) : Word (showNat n) := by
  refine ⟨showNat_ne n, ?_⟩
  intro c hc
  obtain ⟨d, hd, rfl⟩ := showNat_digits n c hc
  interval_cases d <;> decide

/-- Every number has a text: `int(str(n)) == n`. -/
theorem pyInt_showNat (n : Nat) : pyInt (showNat n) = some (n : Int) := by
  unfold pyInt
  rw [strip_of_all _ (showNat_word n).2]
  cases hs : showNat n with
  | nil => exact absurd hs (showNat_ne n)
  | cons c cs =>
    obtain ⟨d, hd, hc⟩ := showNat_digits n c (by rw [hs]; simp)
    have h1 : c ≠ '-' := by rw [hc]; interval_cases d <;> decide
    have h2 : c ≠ '+' := by rw [hc]; interval_cases d <;> decide
    have h3 := natGo_showNat n
    rw [hs] at h3
    split
    · rename_i heq; simp at heq; exact absurd heq.1 h1
    · rename_i heq; simp at heq; exact absurd heq.1 h2
    · rw [h3]; rfl

end Verif.Lammps
