import Verif.Lammps.SpaceSpec
import Verif.Lammps.Lemmas
/-!
# Lemmas: white space in lammps files
-/

namespace Verif.Lammps

open Verif.Text

variable {F : Type} [Sub F]

theorem Blank.space {w : List Char} (h : Blank w) : ∀ c ∈ w, isSpace c = true := by
  intro c hc
  have := h c hc
  simp only [List.mem_cons, List.not_mem_nil, or_false] at this
  rcases this with rfl | rfl | rfl | rfl <;> decide

theorem Blank.no_nl {w : List Char} (h : Blank w) : '\n' ∉ w := by
  intro hc
  exact absurd (h _ hc) (by decide)

theorem lstrip_append_left (sp w : List Char) (h : ∀ c ∈ sp, isSpace c = true) : lstrip (sp ++ w) = lstrip w := by
  unfold lstrip
  induction sp with
  | nil => rfl
  | cons c sp ih =>
    rw [List.cons_append, List.dropWhile_cons, if_pos (h c (by simp))]
    exact ih (fun d hd => h d (by simp [hd]))

theorem strip_spaced (a w b : List Char) (ha : Blank a) (hw : Word w) (hb : Blank b) :
    strip (a ++ w ++ b ++ ['\n']) = w := by
  rw [strip_append_space _ _ (by decide), strip_append_spaces _ _ hb.space]
  unfold strip
  have hr : rstrip (a ++ w) = a ++ w := by
    apply rstrip_eq_self
    intro c hc
    rw [List.getLast?_append_of_ne_nil _ hw.1] at hc
    exact hw.2 c (List.mem_of_getLast? hc)
  rw [hr, lstrip_append_left _ _ ha.space]
  exact lstrip_eq_self w (fun c hc => hw.2 c (List.mem_of_mem_head? hc))

theorem splitWs_blank (sp rest : List Char) (h : ∀ c ∈ sp, isSpace c = true) : splitWs (sp ++ rest) = splitWs rest := by
  unfold splitWs
  induction sp with
  | nil => rfl
  | cons c sp ih =>
    rw [List.cons_append, splitWsGo, if_pos (h c (by simp)), if_pos rfl]
    exact ih (fun d hd => h d (by simp [hd]))

theorem readBound_spaced (float : List Char → Option F) (f : FrameText F) (hv : f.Valid float) (s : Spacing)
    (hs : s.Valid) (a : Fin 3) (rest : List Char) :
    readBound float (f.spacedBound s a ++ rest) = .ok ((f.bound a).2.1.2 - (f.bound a).1.2, rest) := by
  obtain ⟨hw1, hw2⟩ := hv.bound_word a
  obtain ⟨hf1, hf2⟩ := hv.bound_float a
  obtain ⟨ht1, ht2⟩ := hv.bound_tail a
  obtain ⟨b1, b2, b3⟩ := hs.bound a
  unfold FrameText.spacedBound
  set lo := (f.bound a).1.1
  set hi := (f.bound a).2.1.1
  set tl := (f.bound a).2.2
  have hline : readline ((s.boundLead a ++ lo ++ s.boundGap a ++ hi ++ tl ++ ['\n']) ++ rest) =
      (s.boundLead a ++ lo ++ s.boundGap a ++ hi ++ tl ++ ['\n'], rest) := by
    rw [List.append_assoc]
    apply readline_line
    have h1 := hw1.no_nl
    have h2 := hw2.no_nl
    have h3 : '\n' ∉ tl := ht1
    simp only [List.mem_append, not_or]
    exact ⟨⟨⟨⟨b1.no_nl, h1⟩, b2.no_nl⟩, h2⟩, h3⟩
  have hsplit : ∃ more, splitWs (s.boundLead a ++ lo ++ s.boundGap a ++ hi ++ tl ++ ['\n']) = lo :: hi :: more := by
    obtain ⟨c, r, hcr, hc⟩ : ∃ c r, tl ++ ['\n'] = c :: r ∧ isSpace c = true := by
      cases htl : tl with
      | nil => exact ⟨'\n', [], rfl, by decide⟩
      | cons c r => exact ⟨c, r ++ ['\n'], rfl, ht2 c (by rw [htl]; rfl)⟩
    obtain ⟨d, g, hg⟩ := List.exists_cons_of_ne_nil b3
    have hd : ∀ e ∈ d :: g, isSpace e = true := hg ▸ b2.space
    refine ⟨splitWs r, ?_⟩
    rw [List.append_assoc, hcr, List.append_assoc, List.append_assoc, List.append_assoc,
      splitWs_blank _ _ b1.space, hg, List.cons_append,
      splitWs_word_space lo _ d hw1.1 hw1.2 (hd d (by simp)), splitWs_blank _ _ (fun e he => hd e (by simp [he])),
      splitWs_word_space hi _ c hw2.1 hw2.2 hc]
  obtain ⟨more, hmore⟩ := hsplit
  unfold readBound
  simp only [hline, hmore, List.getElem?_cons_succ, List.getElem?_cons_zero, hf1, hf2]

theorem readBox_spaced (float : List Char → Option F) (hfloat : ∀ w, float (w ++ ['\n']) = float w) (f : FrameText F)
    (hv : f.Valid float) (s : Spacing) (hs : s.Valid) (t : Int) (rest : List Char) :
    readBox float t f.numAtoms
      ("ITEM: BOX BOUNDS".toList ++ f.boundsTail ++ '\n' ::
        (f.spacedBound s 0 ++ (f.spacedBound s 1 ++ (f.spacedBound s 2 ++
        (joinSp ("ITEM:".toList :: "ATOMS".toList :: f.headings) ++ f.headingsTail ++ ['\n'] ++
        (f.order.flatMap f.row ++ rest)))))) =
      .ok (⟨t, f.value.box, f.value.cols⟩, rest) := by
  unfold readBox
  rw [readline_line _ _ (by
    rw [List.mem_append, not_or]
    exact ⟨by decide, hv.boundsTail⟩)]
  have hsub : hasSub "ITEM: BOX BOUNDS".toList
      ("ITEM: BOX BOUNDS".toList ++ f.boundsTail ++ ['\n']) = true := by
    rw [hasSub_iff, List.append_assoc]
    exact (List.prefix_append _ _).isInfix
  simp only [hsub, Bool.true_eq_false, if_false, readBound_spaced float f hv s hs]
  rw [readAtoms_eq float hfloat f hv]
  rfl

theorem readFrame_spaced (float : List Char → Option F) (hfloat : ∀ w, float (w ++ ['\n']) = float w) (f : FrameText F)
    (hv : f.Valid float) (s : Spacing) (hs : s.Valid) (rest : List Char) :
    readFrame float (f.spaced s ++ rest) = .ok (f.value, rest) := by
  have hw : f.spaced s ++ rest = "ITEM: TIMESTEP".toList ++ '\n' :: (s.stepLead ++ f.timestepText ++ s.stepTail ++ '\n' ::
    ("ITEM: NUMBER OF ATOMS".toList ++ '\n' :: (s.numLead ++ f.numAtomsText ++ s.numTail ++ '\n' ::
    ("ITEM: BOX BOUNDS".toList ++ f.boundsTail ++ '\n' ::
        (f.spacedBound s 0 ++ (f.spacedBound s 1 ++ (f.spacedBound s 2 ++
        (joinSp ("ITEM:".toList :: "ATOMS".toList :: f.headings) ++ f.headingsTail ++ ['\n'] ++
        (f.order.flatMap f.row ++ rest))))))))) := by
    have e1 : "ITEM: TIMESTEP\n".toList = "ITEM: TIMESTEP".toList ++ ['\n'] := rfl
    have e2 : "ITEM: NUMBER OF ATOMS\n".toList = "ITEM: NUMBER OF ATOMS".toList ++ ['\n'] := rfl
    unfold FrameText.spaced
    rw [e1, e2]
    simp only [List.append_assoc, List.cons_append, List.nil_append]
  have hnl : ∀ (a w b : List Char), Blank a → Word w → Blank b → '\n' ∉ a ++ w ++ b := by
    intro a w b ha hw hb
    simp only [List.mem_append, not_or]
    exact ⟨⟨ha.no_nl, hw.no_nl⟩, hb.no_nl⟩
  rw [hw]
  unfold readFrame
  rw [readline_line _ _ (by decide)]
  rw [if_neg (fun h => h rfl)]
  simp only
  rw [readline_line _ _ (hnl _ _ _ hs.step.1 hv.timestep_word hs.step.2)]
  simp only
  rw [strip_spaced _ _ _ hs.step.1 hv.timestep_word hs.step.2, hv.timestep_int]
  simp only
  unfold readNum
  rw [readline_line _ _ (by decide)]
  rw [if_neg (fun h => h rfl)]
  simp only
  rw [readline_line _ _ (hnl _ _ _ hs.num.1 hv.numAtoms_word hs.num.2)]
  simp only
  rw [strip_spaced _ _ _ hs.num.1 hv.numAtoms_word hs.num.2, hv.numAtoms_int]
  simp only
  rw [readBox_spaced float hfloat f hv s hs]
  rfl

omit [Sub F] in
theorem writeRow_empty (float : List Char → Option F) (hempty : float [] = none) (n : Nat) (i : Int) :
    ∀ (zs : List (List Char × List Char)) (cols : Dict (List Char) (List (Option F))),
      (∃ h, (h, []) ∈ zs) → ∃ e, writeRow float n i cols zs = .error e
  | [], _, h => by simp at h
  | (h, w) :: zs, cols, hz => by
    rw [writeRow]
    cases hf : float w with
    | none => exact ⟨_, rfl⟩
    | some v =>
      cases npIndex n i with
      | none => exact ⟨_, rfl⟩
      | some j =>
        refine writeRow_empty float hempty n i zs _ ?_
        obtain ⟨h', hm⟩ := hz
        rcases List.mem_cons.1 hm with heq | hm
        · obtain ⟨-, rfl⟩ := Prod.mk.injEq .. ▸ heq
          rw [hempty] at hf
          cases hf
        · exact ⟨h', hm⟩

end Verif.Lammps
