import Verif.Figures.Lemmas
/-!
# C67, C68: the data of a figure
-/

namespace Verif.Figures

open Verif.Motion Quaternion
open Verif.Dynamics hiding Mol
open Verif.Frame (View)
open Verif.Molecule (Mol)

variable {C : Type}

/-! ### C68: colours -/

/-- **C68.** The colour lookup succeeds for all angles from -π to π and gives the colour of the hue
of the angle in whole degrees, modulo 360. -/
theorem C68_lookup (conv : Nat → Nat → Nat → C) (angles : List ℝ)
    (h : ∀ a ∈ angles, |a| ≤ Real.pi) (light : Bool) :
    ∃ cs, colourOrientation conv angles light = .ok cs ∧
      List.Forall₂ (Shade conv light) angles cs :=
  mapM_forall _ _ _ (fun a ha => npIndex_shade conv light a (h a ha))

example : ∀ a ∈ [0, Real.pi, -Real.pi, Real.pi / 3], |a| ≤ Real.pi := by
  have := Real.pi_pos
  intro a ha
  simp only [List.mem_cons, List.not_mem_nil, or_false] at ha
  rw [abs_le]
  rcases ha with rfl | rfl | rfl | rfl <;> constructor <;> linarith

/-- The description of the colour in `C68_lookup` leaves no choice. -/
theorem C68_shade_unique (conv : Nat → Nat → Nat → C) (light : Bool) (a : ℝ) (c c' : C)
    (h : Shade conv light a c) (h' : Shade conv light a c') : c = c' := by
  obtain ⟨n, k, ⟨h1, h2, h3⟩, hk, hm, rfl⟩ := h
  obtain ⟨n', k', ⟨h1', h2', h3'⟩, hk', hm', rfl⟩ := h'
  generalize a * 180 / Real.pi = x at *
  have habs : |n| = |n'| := by
    have e1 : (|n| : ℤ) < |n'| + 1 := by
      have : ((|n| : ℤ) : ℝ) < ((|n'| + 1 : ℤ) : ℝ) := by push_cast; linarith
      exact_mod_cast this
    have e2 : (|n'| : ℤ) < |n| + 1 := by
      have : ((|n'| : ℤ) : ℝ) < ((|n| + 1 : ℤ) : ℝ) := by push_cast; linarith
      exact_mod_cast this
    omega
  have hn : n = n' := by
    rcases abs_eq_abs.1 habs with e | e
    · exact e
    · by_cases h0 : n' = 0
      · omega
      · exfalso
        have hne : (n' : ℝ) ≠ 0 := by exact_mod_cast h0
        rw [e] at h3
        push_cast at h3
        have hz : (n' : ℝ) * x = 0 := le_antisymm (by linarith) h3'
        have hx : x = 0 := by
          rcases mul_eq_zero.1 hz with h | h
          · exact absurd h hne
          · exact h
        rw [hx, abs_zero] at h1'
        exact hne (abs_nonpos_iff.1 h1')
  subst hn
  have : k = k' := by omega
  rw [this]

/-- **C68.** Without an ordering all molecules have the dark colour of their angle. -/
theorem C68_plain (conv : Nat → Nat → Nat → C) {N : ℕ} (v : View) (ang : Fin N → ℝ)
    (ha : ∀ m, |ang m| ≤ Real.pi) :
    ∃ c : Fin N → C, colours conv none none false v (List.ofFn ang) =
        .ok (List.ofFn (fun m => .rgb (c m))) ∧ ∀ m, Shade conv false (ang m) (c m) := by
  obtain ⟨c, h1, h2⟩ := colourOrientation_ofFn conv ang ha false
  refine ⟨c, ?_, h2⟩
  unfold colours
  rw [if_neg (by simp)]
  simp only [h1]
  rw [map_ofFn']

/-- Two molecules, at angles 0 and 1. -/
example (conv : Nat → Nat → Nat → C) (v : View) :
    ∃ c : Fin 2 → C, colours conv none none false v (List.ofFn ![0, 1]) = .ok (List.ofFn (fun m => .rgb (c m))) ∧
      ∀ m, Shade conv false (![0, 1] m) (c m) :=
  C68_plain conv v ![0, 1] (by
    have := Real.two_le_pi
    intro m
    fin_cases m <;> simp <;> linarith)

/-- The colours once the mask is known. -/
theorem C68_mask (conv : Nat → Nat → Nat → C) {N : ℕ} (ang : Fin N → ℝ)
    (ha : ∀ m, |ang m| ≤ Real.pi) (mask : Fin N → Bool) :
    ∃ dark c : Fin N → C, colourOrientation conv (List.ofFn ang) false = .ok (List.ofFn dark) ∧
      lighten conv (List.ofFn ang) (List.ofFn dark) (.bools (List.ofFn mask)) = .ok (List.ofFn c) ∧
      ∀ m, Shade conv (mask m) (ang m) (c m) := by
  obtain ⟨dark, h1, h2⟩ := colourOrientation_ofFn conv ang ha false
  obtain ⟨light, h3, h4⟩ := colourOrientation_ofFn conv ang ha true
  refine ⟨dark, fun m => if mask m then light m else dark m, h1, ?_, ?_⟩
  · unfold lighten
    rw [h3]
    exact maskedSet_ofFn dark light mask
  · intro m
    cases hm : mask m
    · simpa [hm] using h2 m
    · simpa [hm] using h4 m

theorem map_bools {N : ℕ} {α : Type} (v : List α) (hv : v.length = N) (f : α → Bool) :
    ∃ mask : Fin N → Bool, v.map f = List.ofFn mask ∧
      ∀ (m : Fin N) (x : α), v[m.val]? = some x → mask m = f x := by
  subst hv
  refine ⟨fun i => f v[i], ?_, ?_⟩
  · apply List.ext_getElem
    · simp
    · intro i h1 h2
      simp
  · intro m x hx
    rw [List.getElem?_eq_getElem m.isLt, Option.some.injEq] at hx
    simp only [Fin.getElem_fin, hx]

/-- **C68.** With a list of orderings, the molecules with a zero (or false) entry, and no others,
have the light colour. -/
theorem C68_order_list (conv : Nat → Nat → Nat → C) {N : ℕ} (v : View) (ang : Fin N → ℝ)
    (ha : ∀ m, |ang m| ≤ Real.pi) (native : Bool) (l : List (Bool × String)) (hl : l.length = N) :
    ∃ c : Fin N → C, colours conv none (some (.nums native l)) false v (List.ofFn ang) =
        .ok (List.ofFn (fun m => .rgb (c m))) ∧
      ∀ (m : Fin N) (ordered : Bool) (s : String), l[m.val]? = some (ordered, s) →
        Shade conv (!ordered) (ang m) (c m) := by
  obtain ⟨mask, h1, h2⟩ := map_bools l hl (fun x => !x.1)
  obtain ⟨dark, c, h3, h4, h5⟩ := C68_mask conv ang ha mask
  refine ⟨c, ?_, ?_⟩
  · unfold colours
    rw [if_neg (by simp)]
    simp only [h3, maskOfList, h1, h4, Except.map]
    rw [map_ofFn']
  · intro m o s hm
    have := h5 m
    rwa [h2 m _ hm] at this

example : ([(true, "1"), (false, "0")] : List (Bool × String)).length = 2 := rfl

/-- **C68 (partial).** The full statement is for all orderings.  With an order function that gives
booleans, `int64` or `float64`, the molecules with a zero (or false) entry, and no others, have the
light colour.  Other types of numbers are ignored, see `C68_order_function_refuted`. -/
theorem C68_order_function_partial (conv : Nat → Nat → Nat → C) {N : ℕ} (v : View)
    (ang : Fin N → ℝ) (ha : ∀ m, |ang m| ≤ Real.pi) (f : View → OrderArr)
    (l : List (Bool × String)) (hf : f v = .nums true l) (hl : l.length = N) :
    ∃ c : Fin N → C, colours conv (some f) none false v (List.ofFn ang) =
        .ok (List.ofFn (fun m => .rgb (c m))) ∧
      ∀ (m : Fin N) (ordered : Bool) (s : String), l[m.val]? = some (ordered, s) →
        Shade conv (!ordered) (ang m) (c m) := by
  obtain ⟨mask, h1, h2⟩ := map_bools l hl (fun x => !x.1)
  obtain ⟨dark, c, h3, h4, h5⟩ := C68_mask conv ang ha mask
  refine ⟨c, ?_, ?_⟩
  · unfold colours
    rw [if_neg (by simp)]
    simp only [h3, maskOfFunction, hf, h1, h4, Except.map]
    rw [map_ofFn']
  · intro m o s hm
    have := h5 m
    rwa [h2 m _ hm] at this

example (v : View) : (fun _ : View => OrderArr.nums true [(true, "1.0"), (false, "0.0")]) v =
      .nums true [(true, "1.0"), (false, "0.0")] ∧
    (∀ m : Fin 2, |(![0, 1] m : ℝ)| ≤ Real.pi) := by
  refine ⟨rfl, ?_⟩
  have := Real.two_le_pi
  intro m
  fin_cases m <;> simp <;> linarith

/-- **C68.** With an order function that gives names of phases, the molecules of the phase "liq",
and no others, have the light colour. -/
theorem C68_order_names (conv : Nat → Nat → Nat → C) {N : ℕ} (v : View)
    (ang : Fin N → ℝ) (ha : ∀ m, |ang m| ≤ Real.pi) (f : View → OrderArr)
    (l : List String) (hf : f v = .strs l) (hl : l.length = N) :
    ∃ c : Fin N → C, colours conv (some f) none false v (List.ofFn ang) =
        .ok (List.ofFn (fun m => .rgb (c m))) ∧
      ∀ (m : Fin N) (s : String), l[m.val]? = some s →
        Shade conv (decide (s = "liq")) (ang m) (c m) := by
  obtain ⟨mask, h1, h2⟩ := map_bools l hl (fun x => x == "liq")
  obtain ⟨dark, c, h3, h4, h5⟩ := C68_mask conv ang ha mask
  refine ⟨c, ?_, ?_⟩
  · unfold colours
    rw [if_neg (by simp)]
    simp only [h3, maskOfFunction, hf, h1, h4, Except.map]
    rw [map_ofFn']
  · intro m s hm
    have := h5 m
    rw [h2 m _ hm] at this
    exact this

example : (["liq", "p2"] : List String).length = 2 := rfl

/-- **C68 (refuted for other numbers).** An order function that gives, say, `float32`: nothing is
coloured light, though the only molecule is not ordered.  Here the colour is the luminance. -/
theorem C68_order_function_refuted :
    ¬ (∀ (conv : Nat → Nat → Nat → Nat) (v : View) (ang : Fin 1 → ℝ) (native : Bool),
      (∀ m, |ang m| ≤ Real.pi) →
      ∃ c : Fin 1 → Nat, colours conv (some (fun _ => .nums native [(false, "0.0")])) none false v
          (List.ofFn ang) = .ok (List.ofFn (fun m => .rgb (c m))) ∧
        ∀ m, Shade conv true (ang m) (c m)) := by
  intro h
  have ha : ∀ m : Fin 1, |(fun _ : Fin 1 => (0 : ℝ)) m| ≤ Real.pi := by
    intro m
    simpa using Real.pi_pos.le
  obtain ⟨c, h1, h2⟩ := h (fun _ _ l => l) ⟨[], [], [], [], [], none, 0, [], 2, 1⟩
    (fun _ => 0) false ha
  obtain ⟨dark, h3, h4⟩ := colourOrientation_ofFn (fun _ _ l => l) (fun _ : Fin 1 => (0 : ℝ)) ha false
  obtain ⟨light, h5, -⟩ := colourOrientation_ofFn (fun _ _ l => l) (fun _ : Fin 1 => (0 : ℝ)) ha true
  unfold colours at h1
  rw [if_neg (by simp)] at h1
  simp only [h3, maskOfFunction, lighten, h5, maskedSet, Except.map, map_ofFn'] at h1
  have hc : c 0 = dark 0 := by
    simp only [List.ofFn_succ, List.ofFn_zero, Except.ok.injEq, List.cons.injEq, Paint.rgb.injEq,
      and_true] at h1
    exact h1.symm
  obtain ⟨_, _, _, _, _, e1⟩ := h2 0
  obtain ⟨_, _, _, _, _, e2⟩ := h4 0
  simp at e1 e2
  omega

/-! ### C67: rows -/

/-- **C67 (partial).** The full statement is for all molecules.  For molecules with a position and a
radius for each of their particles, whenever `frame2data` returns, all five columns have `N * K` rows
and row `p * N + m` is about particle `p` of molecule `m`.  For the rest see `C67_mismatch_refuted`. -/
theorem C67_rows_partial (conv : Nat → Nat → Nat → C) {K N : ℕ} (hK : 0 < K) (v : View)
    (pos : Fin N → V3) (q : Fin N → Quat) (hv : Holds v pos q)
    (mol : Mol) (b : Fin K → V3) (r : Fin K → ℝ) (hs : Shape mol b r)
    (orderFunction : Option (View → OrderArr)) (orderList : Option OrderArr) (categorical : Bool)
    (hfit : Fits N v orderFunction orderList) (d : Data C)
    (h : frame2data conv v orderFunction orderList mol categorical = .ok d) :
    ∃ ang col, (∀ m, IsAngle (q m) (ang m)) ∧ Aligned d pos q b r ang col := by
  have hboth : ¬ (orderFunction.isSome = true ∧ orderList.isSome = true) := by
    intro hb
    unfold frame2data at h
    rw [if_pos hb] at h
    cases h
  have hu : ∀ m, normSq (q m) = 1 := by
    by_contra hc
    push Not at hc
    obtain ⟨m, hm⟩ := hc
    unfold frame2data at h
    rw [if_neg hboth, hv.hq] at h
    unfold Angle.quaternion2z toEulerAll at h
    rw [if_neg (fun hall => hm (hall (q m) (by rw [List.mem_ofFn]; exact ⟨m, rfl⟩)))] at h
    cases h
  have ha : ∀ m, |(toEuler (q m)).1| ≤ Real.pi := by
    intro m
    have := Angle.toEuler_mem (q m)
    rw [abs_le]
    exact ⟨this.1.le, this.2⟩
  obtain ⟨dark, hdark, -⟩ := colourOrientation_ofFn conv _ ha false
  obtain ⟨light, hlight, -⟩ := colourOrientation_ofFn conv _ ha true
  have hcol : ∃ col : Fin N → Paint C, colours conv orderFunction orderList categorical v
      (List.ofFn (fun m => (toEuler (q m)).1)) = .ok (List.ofFn col) := by
    cases hce : colours conv orderFunction orderList categorical v
      (List.ofFn (fun m => (toEuler (q m)).1)) with
    | error e =>
      unfold frame2data at h
      rw [if_neg hboth, hv.hq, quaternion2z_ofFn q hu] at h
      simp only [hce, reduceCtorEq] at h
    | ok cs =>
      have hlen : cs.length = N := by
        have htext : ∀ o : OrderArr, o.size = N → o.text.length = N := by
          intro o ho
          cases o <;> simpa [OrderArr.text, OrderArr.size] using ho
        have hset : ∀ (m : Mask) (l : List (Paint C)), (lighten conv
            (List.ofFn (fun m => (toEuler (q m)).1)) (List.ofFn dark) m).map
            (fun cs => cs.map .rgb) = .ok l → l.length = N := by
          intro m l hl
          unfold lighten at hl
          rw [hlight] at hl
          cases m with
          | scalarFalse =>
            simp only [maskedSet, Except.map, Except.ok.injEq] at hl
            rw [← hl]
            simp
          | bools bs =>
            simp only [maskedSet] at hl
            split_ifs at hl with hb
            · simp only [Except.map, Except.ok.injEq] at hl
              rw [← hl]
              simp only [List.length_ofFn] at hb
              simp [hb]
            · cases hl
        unfold colours at hce
        split_ifs at hce with hcat
        · cases orderFunction with
          | some f =>
            simp only [Except.ok.injEq] at hce
            rw [← hce, List.length_map]
            exact htext _ (hfit.1 f rfl)
          | none =>
            cases orderList with
            | none => cases hce
            | some l =>
              simp only [Except.ok.injEq] at hce
              rw [← hce, List.length_map]
              exact htext _ (hfit.2 l rfl)
        · simp only [hdark] at hce
          cases orderList with
          | some l =>
            simp only at hce
            cases hm : maskOfList l with
            | error e => rw [hm] at hce; cases hce
            | ok m => rw [hm] at hce; exact hset _ _ hce
          | none =>
            cases orderFunction with
            | some f => exact hset _ _ hce
            | none =>
              simp only [Except.ok.injEq] at hce
              rw [← hce]
              simp
      subst hlen
      exact ⟨fun i => cs[i], by simp⟩
  obtain ⟨col, hcol⟩ := hcol
  obtain ⟨d', hd', hal⟩ := frame2data_ok conv hK hv hu hs orderFunction orderList categorical hboth
    col hcol
  rw [hd'] at h
  cases h
  exact ⟨_, col, fun m => isAngle_toEuler (q m), hal⟩

/-- **C68, categories.**  With categories, molecule `m` has the text of its own entry of the ordering, whatever
the angles; an order function goes before an order list. -/
theorem C68_categories (conv : Nat → Nat → Nat → C) {N : ℕ} (v : View) (angle : List ℝ) (w : Fin N → String)
    (nz : Fin N → Bool) (native : Bool) (o : OrderArr)
    (ho : o = .strs (List.ofFn w) ∨ o = .nums native (List.ofFn fun m => (nz m, w m))) :
    (∀ f orderList, f v = o → colours conv (some f) orderList true v angle =
      .ok (List.ofFn fun m => Paint.category (w m))) ∧
    colours conv none (some o) true v angle = .ok (List.ofFn fun m => Paint.category (w m)) := by
  have h : o.text.map (Paint.category (C := C)) = List.ofFn fun m => Paint.category (w m) := by
    rcases ho with rfl | rfl
    · simp [OrderArr.text, List.map_ofFn, Function.comp_def]
    · simp [OrderArr.text, List.map_ofFn, Function.comp_def]
  constructor
  · rintro f orderList rfl
    simp only [colours, if_true, h]
  · simp only [colours, if_true, h]

example : (OrderArr.nums false [(true, "1.0"), (false, "0.0")]) =
    .nums false (List.ofFn fun m : Fin 2 => (![true, false] m, ![("1.0" : String), "0.0"] m)) := by
  simp [List.ofFn_succ]

/-- **C67.** With unit orientations `frame2data` does return, in the three ways the plots use it:
without an ordering, with an order list or function of numbers, and with categories. -/
theorem C67_returns (conv : Nat → Nat → Nat → C) {K N : ℕ} (hK : 0 < K) (v : View)
    (pos : Fin N → V3) (q : Fin N → Quat) (hv : Holds v pos q) (hu : ∀ m, normSq (q m) = 1)
    (mol : Mol) (b : Fin K → V3) (r : Fin K → ℝ) (hs : Shape mol b r) :
    (∃ d, frame2data conv v none none mol false = .ok d) ∧
    (∀ native l, l.length = N → ∃ d, frame2data conv v none (some (.nums native l)) mol false = .ok d) ∧
    (∀ f, (f v).size = N → ∃ d, frame2data conv v (some f) none mol false = .ok d) ∧
    (∀ f, (f v).size = N → ∃ d, frame2data conv v (some f) none mol true = .ok d) ∧
    (∀ l : OrderArr, l.size = N → ∃ d, frame2data conv v none (some l) mol true = .ok d) := by
  have ha : ∀ m, |(toEuler (q m)).1| ≤ Real.pi := by
    intro m
    have := Angle.toEuler_mem (q m)
    rw [abs_le]
    exact ⟨this.1.le, this.2⟩
  have htext : ∀ o : OrderArr, o.size = N → ∃ col : Fin N → Paint C,
      o.text.map .category = List.ofFn col := by
    intro o ho
    have : (o.text.map (Paint.category (C := C))).length = N := by
      cases o <;> simpa [OrderArr.text, OrderArr.size] using ho
    subst this
    exact ⟨fun i => (o.text.map .category)[i], by simp⟩
  refine ⟨?_, ?_, ?_, ?_, ?_⟩
  · obtain ⟨c, hc, -⟩ := C68_plain conv v _ ha
    obtain ⟨d, hd, -⟩ := frame2data_ok conv hK hv hu hs none none false (by simp) _ hc
    exact ⟨d, hd⟩
  · intro native l hl
    obtain ⟨c, hc, -⟩ := C68_order_list conv v _ ha native l hl
    obtain ⟨d, hd, -⟩ := frame2data_ok conv hK hv hu hs none _ false (by simp) _ hc
    exact ⟨d, hd⟩
  · intro f hf
    have : ∃ col : Fin N → Paint C, colours conv (some f) none false v
        (List.ofFn fun m => (toEuler (q m)).1) = .ok (List.ofFn col) := by
      cases hfv : f v with
      | strs l =>
        obtain ⟨c, hc, -⟩ := C68_order_names conv v _ ha f l hfv (by simpa [hfv, OrderArr.size] using hf)
        exact ⟨_, hc⟩
      | nums native l =>
        cases native with
        | true =>
          obtain ⟨c, hc, -⟩ := C68_order_function_partial conv v _ ha f l hfv
            (by simpa [hfv, OrderArr.size] using hf)
          exact ⟨_, hc⟩
        | false =>
          obtain ⟨dark, h3, -⟩ := colourOrientation_ofFn conv _ ha false
          obtain ⟨light, h5, -⟩ := colourOrientation_ofFn conv _ ha true
          refine ⟨fun m => .rgb (dark m), ?_⟩
          unfold colours
          rw [if_neg (by simp)]
          simp only [h3, maskOfFunction, hfv, lighten, h5, maskedSet, Except.map, map_ofFn']
    obtain ⟨col, hc⟩ := this
    obtain ⟨d, hd, -⟩ := frame2data_ok conv hK hv hu hs _ none false (by simp) _ hc
    exact ⟨d, hd⟩
  · intro f hf
    obtain ⟨col, hc⟩ := htext _ hf
    obtain ⟨d, hd, -⟩ := frame2data_ok conv hK hv hu hs (some f) none true (by simp) col (by
      unfold colours
      rw [if_pos rfl]
      simp only [hc])
    exact ⟨d, hd⟩
  · intro l hl
    obtain ⟨col, hc⟩ := htext _ hl
    obtain ⟨d, hd, -⟩ := frame2data_ok conv hK hv hu hs none (some l) true (by simp) col (by
      unfold colours
      rw [if_pos rfl]
      simp only [hc])
    exact ⟨d, hd⟩

/-- A frame of one molecule and the molecule `Disc`. -/
example : Holds (N := 1) ⟨[(1, 2, 0)], [1], [2], [0], [1], none, 0, [1, 1, 1], 2, 1⟩
      (fun _ => (1, 2, 0)) (fun _ => 1) ∧
    Shape (K := 1) Molecule.disc (fun _ => 0) (fun _ => 1 / 2) := by
  refine ⟨⟨by simp, by simp, rfl⟩, ⟨?_, rfl, ?_⟩⟩
  · simp [Molecule.disc, Molecule.initMolecule, Molecule.centre]
  · intro p
    refine ⟨"A", ?_, ?_⟩
    · have : p = 0 := Subsingleton.elim _ _
      subst this
      rfl
    · simp [Molecule.disc, Dict.get?]

/-- **C67 (refuted).** A molecule built from two positions and the default particle list: for a frame
of one molecule the columns `x` and `orientation` have different lengths. -/
theorem C67_mismatch_refuted :
    ¬ (∀ (conv : Nat → Nat → Nat → Nat) (v : View) (mol : Mol) (d : Data Nat),
      Molecule.Constructed mol → frame2data conv v none none mol false = .ok d →
        d.x.length = d.orientation.length) := by
  intro h
  have ha : ∀ m : Fin 1, |(fun _ : Fin 1 => (toEuler 1).1) m| ≤ Real.pi := by
    intro m
    have := Angle.toEuler_mem 1
    rw [abs_le]
    exact ⟨this.1.le, this.2⟩
  let v : View := ⟨[(0, 0, 0)], [0], [0], [0], [1], none, 0, [1, 1, 1], 2, 1⟩
  obtain ⟨c, hc, -⟩ := C68_plain (fun _ _ _ => (0 : Nat)) v _ ha
  have hq : Angle.quaternion2z [1] = .ok [(toEuler 1).1] := by
    have := quaternion2z_ofFn (N := 1) (fun _ => (1 : Quat)) (by simp)
    simpa using this
  have hr : rotateAll [1] [(-1, 0, 0), (1, 0, 0)] = .ok [turned 1 (-1, 0, 0), turned 1 (1, 0, 0)] := by
    have := rotateAll_ofFn (K := 2) (N := 1) (by simp) (fun _ => (1 : Quat)) (by simp)
      ![(-1, 0, 0), (1, 0, 0)]
    simpa [List.ofFn_succ, Fin.divNat] using this
  have hcent : Molecule.centre [(-1, 0, 0), (1, 0, 0)] = 0 := by
    simp [Molecule.centre]
  have hpos : (Molecule.molecule ["A"] [(-1, 0, 0), (1, 0, 0)] []).positions =
      [(-1, 0, 0), (1, 0, 0)] := by
    simp [Molecule.molecule, Molecule.initMolecule, hcent]
  have hrad : (Molecule.molecule ["A"] [(-1, 0, 0), (1, 0, 0)] []).getRadii = .ok [1] := by
    simp [Molecule.molecule, Molecule.initMolecule, Molecule.Mol.getRadii, Dict.setdefault,
      Dict.mem, Dict.get?, Dict.set]
  have hcol : colours (fun _ _ _ => (0 : Nat)) none none false v [(toEuler 1).1] = .ok [.rgb (c 0)] := by
    simpa using hc
  have hnp : (Molecule.molecule ["A"] [(-1, 0, 0), (1, 0, 0)] []).numParticles = 1 := rfl
  obtain ⟨d, hd, hne⟩ : ∃ d, frame2data (fun _ _ _ => (0 : Nat)) v none none
      (Molecule.molecule ["A"] [(-1, 0, 0), (1, 0, 0)] []) false = .ok d ∧
      d.x.length ≠ d.orientation.length := by
    unfold frame2data
    rw [if_neg (by simp)]
    have e1 : v.orientation = [1] := rfl
    have e2 : v.position = [(0, 0, 0)] := rfl
    have e3 : v.len = 1 := rfl
    rw [e1, e2, e3, hq]
    simp only [hcol, hnp, hpos, hrad]
    unfold orientation2positions
    rw [hr]
    simp only [bcast, npRepeat]
    simp
  exact hne (h _ _ _ _ (.molecule _ _ _) hd)

end Verif.Figures
