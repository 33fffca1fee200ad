import Verif.Motion.AliasLemmas
/-!
# C160: what is tracked and the arrays that are handed in and out
-/

namespace Verif.Motion

/-- **C160 (arrays left alone).** The full property says that only the values of the frames count,
at the time when they are added.  It holds for every program that leaves the arrays of the last
frame it has added as they are, and those of the object: it ends with what the frames give when
they are passed by value, or with the same exception.  Missing: programs that use an array again,
see `C160_buffer`. -/
theorem C160_values_partial (h : Memory) (m : Held) (cs : List Cmd) (hTR : m.deltaT ≠ m.deltaR)
    (h1 : m.prevPos ≠ m.deltaT) (h2 : m.prevPos ≠ m.deltaR)
    (hL : LeavesAlone m.deltaT m.deltaR m.prevPos m.prevOri cs) :
    match runHeld h m cs with
    | (h', m', none) => addAll (m.value h) (framesAdded h cs) = .ok (m'.value h')
    | (_, _, some e) => addAll (m.value h) (framesAdded h cs) = .error e :=
  runHeld_value cs h m hTR h1 h2 hL

/-- Two arrays in turn are enough: the one that is filled is not the one handed in last. -/
example : LeavesAlone 0 1 2 none
    [.write 3 [(1, 0, 0)], .add 3 none, .write 2 [(2, 0, 0)], .add 2 none,
     .write 3 [(3, 0, 0)], .add 3 none] := by
  simp [LeavesAlone]

/-- **C160 (the object).** `__init__` on arrays is `__init__` on values, when the two arrays of
zeros are new. -/
theorem C160_new (h : Memory) (b : Box) (p : ℕ) (o : Option ℕ) (aT aR : ℕ) (hTR : aT ≠ aR)
    (h1 : p ≠ aT) (h2 : p ≠ aR) :
    match Held.new h b p o aT aR with
    | (h', .ok m) => Tracked.new b (h.vec p) (o.map h.quat) = .ok (m.value h') ∧
        m.deltaT = aT ∧ m.deltaR = aR ∧ m.prevPos = p ∧ m.prevOri = o
    | (_, .error e) => Tracked.new b (h.vec p) (o.map h.quat) = .error e := by
  unfold Held.new Tracked.new
  cases o with
  | none =>
    simp [Held.value, Memory.setVec, hTR, h1, h2]
  | some o =>
    simp only [Option.map_some]
    have hq : (((h.setVec aT ((h.vec p).map (fun _ => 0))).setVec aR
        (((h.setVec aT ((h.vec p).map (fun _ => 0))).vec p).map (fun _ => 0))).quat o)
        = h.quat o := rfl
    rw [hq]
    by_cases hl : (h.quat o).length = 0
    · simp [hl]
    · simp only [if_neg hl]
      simp [Held.value, Memory.setVec, hTR, h1, h2]

/-- **C160 (one array for all frames).** When the array of positions of the last frame is filled
anew for the next one, no displacement is ever seen, however far the particles move. -/
theorem C160_buffer (a : ℕ) (vs : List (List V3)) (h : Memory) (m : Held)
    (hTR : m.deltaT ≠ m.deltaR) (h1 : a ≠ m.deltaT) (h2 : a ≠ m.deltaR) (hp : m.prevPos = a)
    (ho : m.prevOri = none) (hlen : ∀ v ∈ vs, v.length = (h.vec m.deltaT).length) :
    (runHeld h m (oneBuffer a vs)).2.2 = none ∧
    ((runHeld h m (oneBuffer a vs)).2.1.value (runHeld h m (oneBuffer a vs)).1).deltaT =
      (m.value h).deltaT := by
  obtain ⟨r1, r2, r3⟩ := runHeld_buffer a vs h m hTR h1 h2 hp ho hlen
  refine ⟨r1, ?_⟩
  simp only [Held.value]
  rw [r2, r3]

/-- The arrays 0 and 1 for the results, and the array 2 filled again and again. -/
example (h : Memory) (b : Box) (hl : (h.vec 0).length = 1) :
    ((runHeld h ⟨b, 0, 1, 2, none⟩ (oneBuffer 2 [[(1, 0, 0)], [(2, 0, 0)]])).2.1.value
      (runHeld h ⟨b, 0, 1, 2, none⟩ (oneBuffer 2 [[(1, 0, 0)], [(2, 0, 0)]])).1).deltaT =
    (Held.value ⟨b, 0, 1, 2, none⟩ h).deltaT :=
  (C160_buffer 2 [[(1, 0, 0)], [(2, 0, 0)]] h ⟨b, 0, 1, 2, none⟩ (by simp) (by simp) (by simp) rfl rfl
    (by intro v hv; simp at hv; rcases hv with rfl | rfl <;> simp [hl])).2

/-- A particle at the origin of a cell of length 10: the position is array 2, the displacement array
0 and the rotation array 1. -/
noncomputable def start : Memory × Held :=
  (⟨fun _ => [0], fun _ => []⟩, ⟨⟨10, 10, 0, 0, 0, 0, true⟩, 0, 1, 2, none⟩)

theorem start_moves :
    addAll (start.2.value start.1) (framesAdded start.1 (oneBuffer 2 [[(1, 0, 0)]])) =
      .ok ⟨⟨10, 10, 0, 0, 0, 0, true⟩, [(1, 0, 0)], [0], [(1, 0, 0)], none⟩ := by
  have hw : Box.wrap ⟨10, 10, 0, 0, 0, 0, true⟩ (-1, 0, 0) = (-1, 0, 0) := by
    have hf1 : ⌊(-1 : ℝ) / 10 + 1 / 2⌋ = 0 := by
      rw [Int.floor_eq_iff]; norm_num
    have hf0 : ⌊(0 : ℝ) + 1 / 2⌋ = 0 := by
      rw [Int.floor_eq_iff]; norm_num
    simp only [Box.wrap, Box.frac, Box.coord, wrap1]
    norm_num [hf1]
  have hneg : (0 : V3) - (1, 0, 0) = (-1, 0, 0) := by ext <;> simp
  have hpos : (0 : V3) - (-1, 0, 0) = (1, 0, 0) := by ext <;> simp
  simp only [start, oneBuffer, framesAdded, addAll, Held.value, Tracked.add, transAdd, rotAdd,
    bcast, inplace, Memory.setVec, List.length_singleton, List.zipWith_cons_cons,
    List.zipWith_nil_left, List.map_cons, List.map_nil, if_true, Option.map_none, hneg, hw, hpos]

/-- **C160 is refuted.** One particle, one array of positions: the frame that is added lies one unit
further, which by value is a displacement of one unit, and the object reports none. -/
theorem C160_values_refuted :
    ¬ ∀ (h : Memory) (m : Held) (cs : List Cmd) (h' : Memory) (m' : Held),
      m.deltaT ≠ m.deltaR → m.prevPos ≠ m.deltaT → m.prevPos ≠ m.deltaR →
      runHeld h m cs = (h', m', none) →
      addAll (m.value h) (framesAdded h cs) = .ok (m'.value h') := by
  intro H
  obtain ⟨r1, r2⟩ := C160_buffer 2 [[(1, 0, 0)]] start.1 start.2 (by simp [start]) (by simp [start])
    (by simp [start]) rfl rfl (by simp [start])
  have := H start.1 start.2 (oneBuffer 2 [[(1, 0, 0)]])
    (runHeld start.1 start.2 (oneBuffer 2 [[(1, 0, 0)]])).1
    (runHeld start.1 start.2 (oneBuffer 2 [[(1, 0, 0)]])).2.1
    (by simp [start]) (by simp [start]) (by simp [start]) (by rw [← r1])
  rw [start_moves] at this
  have h2 := congrArg (fun r : Except PyErr Tracked =>
    match r with | .ok t => t.deltaT | .error _ => []) this
  simp only at h2
  rw [r2] at h2
  simp [start, Held.value] at h2

/-- **C160 (the arrays handed out).** `delta_translation` and `delta_rotation` hand out the same two
arrays all the time: what has been kept from an earlier frame shows the last displacement. -/
theorem C160_same_array (cs : List Cmd) : ∀ (h : Memory) (m : Held),
    (runHeld h m cs).2.1.deltaT = m.deltaT ∧ (runHeld h m cs).2.1.deltaR = m.deltaR := by
  induction cs with
  | nil => intro h m; exact ⟨rfl, rfl⟩
  | cons c cs ih =>
    intro h m
    cases c with
    | write a v => exact ih _ m
    | writeQ a v => exact ih _ m
    | add p o =>
      have ha : (m.add h p o).2.1.deltaT = m.deltaT ∧ (m.add h p o).2.1.deltaR = m.deltaR := by
        unfold Held.add
        split
        · exact ⟨rfl, rfl⟩
        · dsimp only
          split <;> exact ⟨rfl, rfl⟩
      simp only [runHeld]
      generalize hr : m.add h p o = r at ha ⊢
      obtain ⟨h', m', e⟩ := r
      cases e with
      | some e => exact ha
      | none =>
        simp only at ha ⊢
        rw [(ih h' m').1, (ih h' m').2]
        exact ha

/-- **C160 is refuted for the arrays handed out.** The displacement kept before a frame is added is
another one afterwards. -/
theorem C160_kept_refuted :
    ¬ ∀ (h : Memory) (m : Held) (cs : List Cmd),
      LeavesAlone m.deltaT m.deltaR m.prevPos m.prevOri cs →
      (runHeld h m cs).1.vec m.deltaT = h.vec m.deltaT := by
  intro H
  have hL : LeavesAlone start.2.deltaT start.2.deltaR start.2.prevPos start.2.prevOri
      [.write 3 [(1, 0, 0)], .add 3 none] := by simp [LeavesAlone, start]
  have h1 := H start.1 start.2 [.write 3 [(1, 0, 0)], .add 3 none] hL
  have h2 := C160_values_partial start.1 start.2 [.write 3 [(1, 0, 0)], .add 3 none]
    (by simp [start]) (by simp [start]) (by simp [start]) hL
  have h3 := (C160_same_array [.write 3 [(1, 0, 0)], .add 3 none] start.1 start.2).1
  have hf : framesAdded start.1 [.write 3 [(1, 0, 0)], .add 3 none] =
      framesAdded start.1 (oneBuffer 2 [[(1, 0, 0)]]) := by
    simp [framesAdded, oneBuffer, Memory.setVec]
  rw [hf, start_moves] at h2
  generalize runHeld start.1 start.2 [.write 3 [(1, 0, 0)], .add 3 none] = r at h1 h2 h3
  obtain ⟨h', m', e⟩ := r
  cases e with
  | some e => simp at h2
  | none =>
    simp only [Except.ok.injEq] at h2
    have := congrArg Tracked.deltaT h2
    simp only [Held.value] at this h1 h3
    rw [h3, h1] at this
    simp [start] at this

end Verif.Motion
