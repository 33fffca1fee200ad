import Verif.Lammps.Lemmas
/-!
# Properties C18 – C20, C75 – C77: reading lammps trajectories
-/

namespace Verif.Lammps

open Verif.Text

variable {F : Type} [Sub F]

/-- A concrete frame for the examples: three atoms, columns `id x y`, lines in the order 3, 1, 2,
blank at the end of each line. -/
def sampleText (t : Nat) : FrameText Int where
  timestep := t
  timestepText := showNat t
  numAtoms := 3
  numAtomsText := ['3']
  boundsTail := " pp pp pp".toList
  bound := fun _ => ((['0'], 0), (['9'], 9), [' '])
  headings := ["id".toList, "x".toList, "y".toList]
  headingsTail := [' ']
  cell := fun i j => if j = 0 then (showNat (i + 1), ((i + 1 : Nat) : Int))
    else (showNat (10 * i + j), ((10 * i + j : Nat) : Int))
  extra := fun _ => [[]]
  order := [2, 0, 1]

theorem word_of (w : List Char) (h : (w ≠ [] ∧ ∀ c ∈ w, isSpace c = false)) : Word w := h

theorem sampleText_valid (t : Nat) : (sampleText t).Valid pyInt where
  timestep_word := showNat_word t
  timestep_int := pyInt_showNat t
  numAtoms_word := word_of ['3'] (by decide)
  numAtoms_int := (by decide : pyInt ['3'] = some 3)
  boundsTail := (by decide : '\n' ∉ " pp pp pp".toList)
  bound_word := fun _ => ⟨word_of ['0'] (by decide), word_of ['9'] (by decide)⟩
  bound_float := fun _ => ⟨(by decide : pyInt ['0'] = some 0), (by decide : pyInt ['9'] = some 9)⟩
  bound_tail := fun _ => ⟨(by decide : '\n' ∉ [' ']), fun c hc => by
    have : c = ' ' := (Option.some_inj.1 hc).symm
    subst this; decide⟩
  heading_word := by
    intro h hh
    simp only [sampleText, List.mem_cons, List.not_mem_nil, or_false] at hh
    rcases hh with rfl | rfl | rfl <;> exact ⟨by decide, by decide⟩
  heading_nodup := (by decide : (["id".toList, "x".toList, "y".toList] : List (List Char)).Nodup)
  heading_id := (by decide : "id".toList ∈ ["id".toList, "x".toList, "y".toList])
  headingsTail := (by decide : ∀ c ∈ [' '], c = ' ')
  cell_word := by
    intro i j
    simp only [sampleText]
    split <;> exact showNat_word _
  cell_float := by
    intro i j
    simp only [sampleText]
    split <;> exact pyInt_showNat _
  cell_id := by
    intro i j h
    have h' : (["id".toList, "x".toList, "y".toList] : List (List Char))[j]? = some "id".toList := h
    have hj : j = 0 := by
      match j, h' with
      | 0, _ => rfl
      | 1, h => exact absurd h (by decide)
      | 2, h => exact absurd h (by decide)
      | j + 3, h => exact absurd h (by simp)
    subst hj
    have := pyInt_showNat (i + 1)
    push_cast at this
    exact this
  extra_piece := by
    intro i w hw
    simp only [sampleText, List.mem_cons, List.not_mem_nil, or_false] at hw
    subst hw
    exact ⟨by unfold Piece; decide, by decide⟩
  order_perm := (by decide : [2, 0, 1].Perm (List.range 3))

/-! ## C18 -/

/-- **C18.** Parsing the text of any list of frames returns the frames: timestep, box lengths and
every column by atom id, whatever the order of the atom lines (`order` is any permutation), the
trailing blanks and further words.  `float` is any conversion that ignores a final newline. -/
theorem C18_lammps_round_trip (float : List Char → Option F)
    (hfloat : ∀ w, float (w ++ ['\n']) = float w) (fs : List (FrameText F))
    (hv : ∀ f ∈ fs, f.Valid float) :
    parseLammps float (fs.flatMap FrameText.write) = (fs.map FrameText.value, none) := by
  have := parseLammps_append float hfloat [] fs hv
  rw [List.append_nil, parseLammps_nil, List.append_nil] at this
  exact this

/-- Two ways of writing the atom lines give the same frames. -/
theorem C18_order_irrelevant (float : List Char → Option F)
    (hfloat : ∀ w, float (w ++ ['\n']) = float w) (f : FrameText F) (hv : f.Valid float)
    (order' : List Nat) (ho : order'.Perm f.order) :
    parseLammps float (FrameText.write { f with order := order' }) =
      parseLammps float f.write := by
  have hv' : FrameText.Valid float { f with order := order' } :=
    { hv with order_perm := ho.trans hv.order_perm }
  have h1 := C18_lammps_round_trip float hfloat [f] (by simpa using hv)
  have h2 := C18_lammps_round_trip float hfloat [{ f with order := order' }] (by simpa using hv')
  simp only [List.flatMap_cons, List.flatMap_nil, List.append_nil] at h1 h2
  rw [h1, h2]
  rfl

example : ∃ fs : List (FrameText Int), fs.length = 2 ∧ (∀ f ∈ fs, f.Valid pyInt) ∧
    (∀ w, pyInt (w ++ ['\n']) = pyInt w) ∧ (fs.map FrameText.value).map LFrame.box =
      [[9, 9, 9], [9, 9, 9]] ∧ ((fs.map FrameText.value).map LFrame.cols)[1]? =
      some [("id".toList, [some 1, some 2, some 3]), ("x".toList, [some 1, some 11, some 21]),
        ("y".toList, [some 2, some 12, some 22])] :=
  ⟨[sampleText 0, sampleText 100], rfl,
    by intro f hf; simp only [List.mem_cons, List.not_mem_nil, or_false] at hf
       rcases hf with rfl | rfl <;> exact sampleText_valid _,
    pyInt_append_nl, by decide, by decide⟩

/-! ## C19 -/

theorem readline_firstLine (s l : List Char) (h : FirstLine s l) : (readline s).1 = l := by
  obtain ⟨w, hw, ⟨rest, rfl, rfl⟩ | ⟨rfl, rfl⟩⟩ := h
  · rw [readline_line _ _ hw]
  · induction l with
    | nil => rfl
    | cons c l ih =>
      rw [List.mem_cons, not_or] at hw
      rw [readline, if_neg (Ne.symm hw.1), ih hw.2]

/-- **C19 (delivery).** Whatever follows, the frames before it are delivered intact. -/
theorem C19_earlier_frames_delivered (float : List Char → Option F)
    (hfloat : ∀ w, float (w ++ ['\n']) = float w) (fs : List (FrameText F))
    (hv : ∀ f ∈ fs, f.Valid float) (tail : List Char) :
    fs.map FrameText.value <+: (parseLammps float (fs.flatMap FrameText.write ++ tail)).1 := by
  rw [parseLammps_append float hfloat tail fs hv]
  exact List.prefix_append _ _

/-- A frame before text that is not a frame. -/
example : [(sampleText 0).value] <+: (parseLammps pyInt ((sampleText 0).write ++ "garbage\nmore".toList)).1 := by
  have h := C19_earlier_frames_delivered pyInt pyInt_append_nl [sampleText 0]
    (by intro f hf; obtain rfl := List.mem_singleton.1 hf; exact sampleText_valid _) "garbage\nmore".toList
  simpa using h

/-- **C19.** Good frames followed by a frame one of whose four section headers is wrong: exactly the
good frames are yielded and RuntimeError is raised.  The wrong line `l` may be empty (truncated
file) except for the first header, where an empty line is the end of the file. -/
theorem C19_malformed_header (float : List Char → Option F)
    (hfloat : ∀ w, float (w ++ ['\n']) = float w) (fs : List (FrameText F))
    (hv : ∀ f ∈ fs, f.Valid float) (f : FrameText F) (hf : f.Valid float) (tail l : List Char)
    (hl : FirstLine tail l) :
    (l ≠ [] → l ≠ "ITEM: TIMESTEP\n".toList →
      parseLammps float (fs.flatMap FrameText.write ++ tail) =
        (fs.map FrameText.value, some .runtimeError)) ∧
    (l ≠ "ITEM: NUMBER OF ATOMS\n".toList →
      parseLammps float (fs.flatMap FrameText.write ++
        ("ITEM: TIMESTEP".toList ++ '\n' :: (f.timestepText ++ '\n' :: tail))) =
        (fs.map FrameText.value, some .runtimeError)) ∧
    (¬ "ITEM: BOX BOUNDS".toList <:+: l →
      parseLammps float (fs.flatMap FrameText.write ++
        ("ITEM: TIMESTEP".toList ++ '\n' :: (f.timestepText ++ '\n' ::
        ("ITEM: NUMBER OF ATOMS".toList ++ '\n' :: (f.numAtomsText ++ '\n' :: tail))))) =
        (fs.map FrameText.value, some .runtimeError)) ∧
    (¬ "ITEM: ATOMS".toList <:+: l →
      parseLammps float (fs.flatMap FrameText.write ++
        ("ITEM: TIMESTEP".toList ++ '\n' :: (f.timestepText ++ '\n' ::
        ("ITEM: NUMBER OF ATOMS".toList ++ '\n' :: (f.numAtomsText ++ '\n' ::
        ("ITEM: BOX BOUNDS".toList ++ f.boundsTail ++ '\n' ::
        (f.boundLine 0 ++ (f.boundLine 1 ++ (f.boundLine 2 ++ tail))))))))) =
        (fs.map FrameText.value, some .runtimeError)) := by
  have hrl := readline_firstLine tail l hl
  -- it is enough that reading the bad frame fails with an assertion
  have key : ∀ src, src ≠ [] → readFrame float src = .error .assertionError →
      parseLammps float (fs.flatMap FrameText.write ++ src) =
        (fs.map FrameText.value, some .runtimeError) := by
    intro src hne h
    rw [parseLammps_append float hfloat src fs hv, parseLammps_error float src _ hne h,
      List.append_nil]
    rfl
  -- the first section
  have h1 : ∀ src, readFrame float
      ("ITEM: TIMESTEP".toList ++ '\n' :: (f.timestepText ++ '\n' :: src)) =
      readNum float f.timestep src := by
    intro src
    unfold readFrame
    rw [readline_line _ _ (by decide), if_neg (fun h => h rfl)]
    simp only
    rw [readline_line _ _ hf.timestep_word.no_nl]
    simp only
    rw [strip_word_nl _ hf.timestep_word, hf.timestep_int]
  -- the second section
  have h2 : ∀ src, readNum float f.timestep
      ("ITEM: NUMBER OF ATOMS".toList ++ '\n' :: (f.numAtomsText ++ '\n' :: src)) =
      readBox float f.timestep f.numAtoms src := by
    intro src
    unfold readNum
    rw [readline_line _ _ (by decide), if_neg (fun h => h rfl)]
    simp only
    rw [readline_line _ _ hf.numAtoms_word.no_nl]
    simp only
    rw [strip_word_nl _ hf.numAtoms_word, hf.numAtoms_int]
  have hne : ∀ src, "ITEM: TIMESTEP".toList ++ '\n' :: src ≠ [] := fun src =>
    List.append_ne_nil_of_left_ne_nil (by decide) _
  refine ⟨?_, ?_, ?_, ?_⟩
  · intro hl0 hbad
    apply key
    · rintro rfl
      exact hl0 (by rw [← hrl]; rfl)
    · unfold readFrame
      rw [hrl, if_pos hbad]
  · intro hbad
    apply key _ (hne _)
    rw [h1]
    unfold readNum
    rw [hrl, if_pos hbad]
  · intro hbad
    apply key _ (hne _)
    rw [h1, h2]
    unfold readBox
    rw [hrl, if_pos (by rw [← Bool.not_eq_true, hasSub_iff]; exact hbad)]
  · intro hbad
    apply key _ (hne _)
    rw [h1, h2]
    unfold readBox
    rw [readline_line _ _ (by
      rw [List.mem_append, not_or]
      exact ⟨by decide, hf.boundsTail⟩)]
    have hsub : hasSub "ITEM: BOX BOUNDS".toList
        ("ITEM: BOX BOUNDS".toList ++ f.boundsTail ++ ['\n']) = true := by
      rw [hasSub_iff, List.append_assoc]
      exact (List.prefix_append _ _).isInfix
    simp only [hsub, Bool.true_eq_false, if_false, readBound_eq float f hf]
    unfold readAtoms
    simp only [hrl]
    rw [if_pos (by rw [← Bool.not_eq_true, hasSub_iff]; exact hbad)]

example : FirstLine "garbage\nmore".toList "garbage\n".toList ∧
    "garbage\n".toList ≠ [] ∧ "garbage\n".toList ≠ "ITEM: TIMESTEP\n".toList ∧
    (sampleText 0).Valid pyInt :=
  ⟨⟨"garbage".toList, by decide, Or.inl ⟨"more".toList, rfl, rfl⟩⟩, by decide, by decide,
    sampleText_valid 0⟩

/-! ## C20 -/

/-- **C20.** The reader yields the frames of the parser up to (not including) the first one beyond
`steps_max`, each with the keyframe list `[0]`; it raises what the parser raises unless it stopped
before. -/
theorem C20_lammps_prefix (float : List Char → Option F) (src : List Char)
    (stepsMax : Option Int) :
    let frames := (parseLammps float src).1
    let keep := frames.takeWhile (fun f => !stepsMax.any (fun m => decide (m < f.timestep)))
    (readLammps float src stepsMax).1 = keep.map (fun f => ([0], f)) ∧
    (readLammps float src stepsMax).2 =
      if keep.length = frames.length then (parseLammps float src).2 else none := by
  have : ∀ (fs : List (LFrame F)) (fe : Option PyErr),
      (readLoop stepsMax fe fs).1 =
        (fs.takeWhile (fun f => !stepsMax.any (fun m => decide (m < f.timestep)))).map
          (fun f => ([0], f)) ∧
      (readLoop stepsMax fe fs).2 =
        if (fs.takeWhile (fun f => !stepsMax.any (fun m => decide (m < f.timestep)))).length
          = fs.length then fe else none := by
    intro fs fe
    induction fs with
    | nil => simp [readLoop]
    | cons f fs ih =>
      rw [readLoop, List.takeWhile_cons]
      cases hb : stepsMax.any (fun m => decide (f.timestep > m)) with
      | true =>
        simp
      | false =>
        simp only [Bool.not_false, if_true, Bool.false_eq_true, if_false, ih.1, ih.2,
          List.map_cons, List.length_cons, Nat.add_right_cancel_iff, and_self]
  exact this _ _

example : (readLammps pyInt ((sampleText 0).write ++ (sampleText 5).write) (some 4)).1.length = 1 := by
  have h := C18_lammps_round_trip pyInt pyInt_append_nl [sampleText 0, sampleText 5] (by
    intro f hf; simp only [List.mem_cons, List.not_mem_nil, or_false] at hf
    rcases hf with rfl | rfl <;> exact sampleText_valid _)
  simp only [List.flatMap_cons, List.flatMap_nil, List.append_nil] at h
  rw [(C20_lammps_prefix pyInt _ (some 4)).1, h]
  decide

/-! ## C75 -/

/-- The full property: every entry of a yielded frame was read from the file. -/
def AllInitialised (f : LFrame Int) : Prop := ∀ c ∈ f.cols, none ∉ c.2

/-- **C75 is false of the code**: with a repeated atom id the arrays keep entries of `np.empty`
that were never written, and no error is raised. -/
theorem C75_all_initialised_refuted :
    ¬ (∀ (src : List Char), ∀ f ∈ (parseLammps pyInt src).1, AllInitialised f) := by
  intro h
  have := h ("ITEM: TIMESTEP\n0\nITEM: NUMBER OF ATOMS\n2\nITEM: BOX BOUNDS\n0 1\n0 1\n0 1\n" ++
    "ITEM: ATOMS id\n1\n1\n").toList ⟨0, [1, 1, 1], [("id".toList, [some 1, none])]⟩ (by decide)
    ("id".toList, [some 1, none]) (by decide)
  exact this (by decide)

/-- **C75 (partial).** The full statement is `AllInitialised` for every file.  It holds for the
frames of well formed files, where the ids are 1 … N in some order. -/
theorem C75_all_initialised_partial (float : List Char → Option F)
    (hfloat : ∀ w, float (w ++ ['\n']) = float w) (fs : List (FrameText F))
    (hv : ∀ f ∈ fs, f.Valid float) :
    ∀ f ∈ (parseLammps float (fs.flatMap FrameText.write)).1, ∀ c ∈ f.cols, none ∉ c.2 := by
  rw [C18_lammps_round_trip float hfloat fs hv]
  intro f hf c hc hn
  obtain ⟨g, _, rfl⟩ := List.mem_map.1 hf
  obtain ⟨j, _, rfl⟩ := List.mem_map.1 hc
  simp at hn

example : ∃ f : FrameText Int, f.Valid pyInt ∧ f.numAtoms = 3 := ⟨sampleText 0, sampleText_valid 0, rfl⟩

/-! ## C76 -/

/-- **C76 is false of the code**: an atom line with id 0 is not refused; it overwrites the values of
the last atom (index -1). -/
theorem C76_ids_checked_refuted :
    ¬ (∀ (n : Nat) (id : Int), (id < 1 ∨ (n : Int) < id) → npIndex n (id - 1) = none) ∧
    parseLammps pyInt ("ITEM: TIMESTEP\n0\nITEM: NUMBER OF ATOMS\n2\nITEM: BOX BOUNDS\n0 1\n0 1\n" ++
      "0 1\nITEM: ATOMS id x\n2 7\n0 8\n").toList =
      ([⟨0, [1, 1, 1], [("id".toList, [none, some 0]), ("x".toList, [none, some 8])]⟩], none) := by
  constructor
  · intro h
    have := h 2 0 (by decide)
    revert this
    decide
  · decide

/-- **C76 (partial).** The full statement: every id outside 1 … N is refused with IndexError.  It
holds for ids above N and for ids at most -N; ids in -N+1 … 0 are taken from the end. -/
theorem C76_ids_checked_partial (n : Nat) (id : Int) :
    ((n : Int) < id ∨ id ≤ -(n : Int) → npIndex n (id - 1) = none) ∧
    (1 ≤ id → id ≤ n → npIndex n (id - 1) = some (id - 1).toNat) ∧
    (-(n : Int) < id → id < 1 → npIndex n (id - 1) = some (id - 1 + n).toNat) := by
  unfold npIndex
  refine ⟨?_, ?_, ?_⟩
  · intro h
    rw [if_neg (by omega), if_neg (by omega)]
  · intro h1 h2
    rw [if_pos (by omega)]
  · intro h1 h2
    rw [if_neg (by omega), if_pos (by omega)]

omit [Sub F] in
/-- An id that is refused stops the file: the row cannot be stored, and the exception is
IndexError. -/
theorem C76_refused_row (float : List Char → Option F) (n : Nat) (id : Int)
    (cols : Dict (List Char) (List (Option F))) (h w : List Char) (v : F)
    (rest : List (List Char × List Char)) (hid : (n : Int) < id ∨ id ≤ -(n : Int))
    (hw : float w = some v) :
    writeRow float n (id - 1) cols ((h, w) :: rest) = .error .indexError := by
  rw [writeRow, hw]
  simp only [(C76_ids_checked_partial n id).1 hid]

example : npIndex 3 (4 - 1) = none ∧ npIndex 3 (3 - 1) = some 2 := by decide

/-! ## C77 -/

/-- A frame written by lammps for a triclinic cell with tilt `xy = 2` and bounds 0, 12. -/
def triclinicText : FrameText Int :=
  { sampleText 0 with
    boundsTail := " xy xz yz pp pp pp".toList
    bound := fun a => if a = 0 then ((['0'], 0), ("12".toList, 12), " 2".toList)
      else ((['0'], 0), ("10".toList, 10), " 0".toList) }

/-- **C77 is false of the code**: the tilt is ignored, so the length along x of a triclinic cell is
that of its bounding box. -/
theorem C77_triclinic_box_refuted :
    ¬ (∀ (lo hi xy : Int) (f : FrameText Int), f.Valid pyInt →
      (f.bound 0).1.2 = lo → (f.bound 0).2.1.2 = hi → pyInt (f.bound 0).2.2 = some xy →
      ((parseLammps pyInt f.write).1.map LFrame.box).map List.head? =
        [some (triclinicLx lo hi xy 0)]) := by
  intro h
  have hv : triclinicText.Valid pyInt :=
    { sampleText_valid 0 with
      boundsTail := by unfold Piece; decide
      bound_word := by
        intro a
        simp only [triclinicText]
        split <;> exact ⟨⟨by decide, by decide⟩, ⟨by decide, by decide⟩⟩
      bound_float := by
        intro a
        simp only [triclinicText]
        split <;> exact ⟨by decide, by decide⟩
      bound_tail := by
        intro a
        simp only [triclinicText]
        split <;> refine ⟨by unfold Piece; decide, ?_⟩ <;> intro c hc <;>
          (have hc' : c = ' ' := (Option.some_inj.1 hc).symm; subst hc'; decide) }
  have h1 := h 0 12 2 triclinicText hv rfl rfl (by decide)
  have h2 := C18_lammps_round_trip pyInt pyInt_append_nl [triclinicText] (by simpa using hv)
  simp only [List.flatMap_cons, List.flatMap_nil, List.append_nil] at h2
  rw [h2] at h1
  revert h1
  decide

/-- **C77 (partial).** The full statement is the one refuted above (lengths and tilts of a triclinic
cell).  It holds for zero tilt: then the difference of the bounds is the length. -/
theorem C77_triclinic_box_partial (f : FrameText Int) (hv : f.Valid pyInt) :
    ((parseLammps pyInt f.write).1.map LFrame.box).map List.head? =
      [some (triclinicLx (f.bound 0).1.2 (f.bound 0).2.1.2 0 0)] := by
  have h2 := C18_lammps_round_trip pyInt pyInt_append_nl [f] (by simpa using hv)
  simp only [List.flatMap_cons, List.flatMap_nil, List.append_nil] at h2
  rw [h2]
  simp [FrameText.value, triclinicLx]

example : (sampleText 3).Valid pyInt := sampleText_valid 3

end Verif.Lammps
