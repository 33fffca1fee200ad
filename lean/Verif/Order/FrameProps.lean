import Mathlib.Tactic.IntervalCases
import Verif.Order.Props
import Verif.Order.FrameSpec
import Verif.Frame.Props
/-!
# Order of particles and order of molecules: C176
-/

namespace Verif.Order

open Verif.Motion Verif.Frame

theorem count_map_above (r : List ℝ) (t : ℝ) :
    (r.map (above t)).count true = (r.filter (above t)).length := by
  induction r with
  | nil => rfl
  | cons x r ih =>
    rw [List.map_cons, List.filter_cons, List.count_cons, ih]
    cases above t x <;> simp

/-- **C176 (partial).**  The full statement is `OrderAgrees` for every complete snapshot, see
`C176_refuted`.  Proved when every particle is a molecule of its own: the printed fraction is that
of the molecules which the ordering marks, the step is that of the frame, and the one raises if the
other does, or if there are no particles. -/
theorem C176_agrees_partial (freud : Freud) (a : Arith) (s : Snapshot) (hs : Complete s) (v : View)
    (hv : hoomdFrame a s = .ok v) (hlen : v.len = s.N) :
    OrderAgrees freud a s ∧
    (∀ l, orderSnapshot freud s = .ok l → l.1 = v.timestep) ∧
    (∀ e, orderingOfSnapshot freud a 0.9 s = .error e → orderSnapshot freud s = .error e) ∧
    (∀ marks, orderingOfSnapshot freud a 0.9 s = .ok marks → marks ≠ [] →
      ∃ l, orderSnapshot freud s = .ok l) := by
  have hv' := hv
  unfold hoomdFrame at hv'
  split at hv'
  · cases hv'
  next n hn =>
  have hnN : n = s.N := by cases hv'; exact hlen
  have hp : v.position = s.position := by
    cases hv'
    simp only
    rw [sliceTo, if_pos (by have := hs.position; omega), List.take_of_length_le]
    have := hs.position
    omega
  have ho : v.orientation = s.orientation := by
    cases hv'
    simp only
    rw [sliceTo, if_pos (by have := hs.position; omega), List.take_of_length_le]
    have := hs.orientation
    omega
  have hb : v.box = s.box.array := by cases hv'; rfl
  have ht : v.timestep = s.step := by cases hv'; rfl
  have hord : orderingOfSnapshot freud a 0.9 s =
      orientOrdering freud 0.9 s.box.array s.position s.orientation := by
    rw [orderingOfSnapshot, hv]
    simp only [hp, ho, hb]
  unfold OrderAgrees
  rw [hord, orderSnapshot, orderLine, orientOrdering, ht]
  cases hr : orientationalOrder freud s.box.array s.position s.orientation 3.5 8 with
  | error e =>
    refine ⟨fun l marks h => (by cases h), fun l h => (by cases h), fun e' h => ?_,
      fun marks h => (by cases h)⟩
    simpa using h
  | ok r =>
    simp only
    by_cases h0 : r.length = 0
    · rw [if_pos h0]
      refine ⟨fun l marks h => (by cases h), fun l h => (by cases h), fun e' h => (by cases h),
        fun marks h hne => ?_⟩
      cases h
      exact absurd (by simpa using h0) hne
    · rw [if_neg h0]
      refine ⟨?_, ?_, fun e' h => (by cases h), fun marks h hne => ⟨_, rfl⟩⟩
      · intro l marks h h'
        cases h
        cases h'
        refine ⟨fun h => h0 (by simpa using h), ?_⟩
        have h0' : (r.length : ℝ) ≠ 0 := by exact_mod_cast h0
        simp only [List.length_map]
        rw [div_mul_cancel₀ _ h0', count_map_above]
      · intro l h
        cases h
        rfl

/-- Four particles without bodies, and the same with one body each. -/
example : (hoomdFrame .wide (sampleSnap 4 none)).map View.len = .ok 4 ∧
    (hoomdFrame .wide (sampleSnap 4 (some [0, 1, 2, 3]))).map View.len = .ok 4 := by
  have h1 : getNumBodies .wide (sampleSnap 4 none) = .ok 4 := by decide
  have h2 : getNumBodies .wide (sampleSnap 4 (some [0, 1, 2, 3])) = .ok 4 := by decide
  exact ⟨by rw [hoomdFrame, h1]; rfl, by rw [hoomdFrame, h2]; rfl⟩

/-- **C176.**  Whatever the molecules, the printed fraction is one of all the particles: a multiple
of `1/N`, while the ordering has one entry per molecule. -/
theorem C176_particles (freud : Freud) (hf : freud.Correct) (a : Arith) (s : Snapshot)
    (hs : Complete s) (hbox : 3 ≤ s.box.array.length) (hu : AllUnit s.orientation)
    (hsmall : s.N ≤ missing) (l : Int × ℝ) (h : orderSnapshot freud s = .ok l) :
    (∃ k : ℕ, l.2 * s.N = k ∧ k ≤ s.N) ∧
    ∀ v marks, hoomdFrame a s = .ok v → 0 ≤ v.len → orderingOfSnapshot freud a 0.9 s = .ok marks →
      (marks.length : Int) = v.len := by
  have hol : s.position.length = s.orientation.length := by
    have := hs.position
    have := hs.orientation
    omega
  constructor
  · obtain ⟨_, _, _, r, hr, _, hk⟩ := C85_fraction freud _ l h
    simp only at hr
    obtain ⟨_, res, _, hres, hlen, _⟩ := C63_orientational_order freud hf s.box.array hbox
      s.position s.orientation hol (by have := hs.orientation; omega) hu 3.5 8 (by norm_num)
    rw [hres] at hr
    obtain rfl : res = r := by cases hr; rfl
    have hN : (res.length : Int) = s.N := by rw [hlen]; exact hs.orientation
    have hle := Finset.card_filter_le (Finset.range res.length)
      (fun i => ∃ y, res[i]? = some y ∧ 9 / 10 < y)
    rw [Finset.card_range] at hle
    exact ⟨_, by rw [← hk, ← hN]; simp, by omega⟩
  · intro v marks hv hv0 hm
    have hal := C60_hoomd_aligned a s hs v hv hv0
    have hvb : v.box = s.box.array ∧ ∀ q ∈ v.orientation, q ∈ s.orientation := by
      unfold hoomdFrame at hv
      split at hv
      · cases hv
      next n hn =>
      cases hv
      refine ⟨rfl, fun q hq => ?_⟩
      simp only [sliceTo] at hq
      split at hq <;> exact List.mem_of_mem_take hq
    have hvl : v.orientation.length ≤ s.orientation.length := by
      unfold hoomdFrame at hv
      split at hv
      · cases hv
      next n hn =>
      cases hv
      simp only [sliceTo]
      split <;> rw [List.length_take] <;> omega
    rw [orderingOfSnapshot, hv] at hm
    obtain ⟨r, hr, hml, _⟩ := C62_ordering _ _ _ _ _ _ hm
    obtain ⟨_, res, _, hres, hlen, _⟩ := C63_orientational_order freud hf v.box
      (by rw [hvb.1]; exact hbox)
      v.position v.orientation (by have := hal.position; have := hal.orientation; omega)
      (by have := hs.orientation; omega)
      (fun q hq => hu q (hvb.2 q hq)) 3.5 8 (by norm_num)
    rw [hres] at hr
    cases hr
    rw [hml, hlen]
    exact hal.orientation

/-- One molecule of two particles, the second turned by a quarter turn. -/
noncomputable def dimerSnap : Snapshot where
  N := 2
  body := some [0, 0]
  position := [(0, 0, 0), (1, 0, 0)]
  orientation := [zRot 0, zRot (Real.pi / 2)]
  image := none
  step := 7
  box := .gsd [20, 20, 1, 0, 0, 0] 2

theorem dimerSnap_complete : Complete dimerSnap :=
  ⟨rfl, rfl, fun im h => by cases h⟩

theorem dimerSnap_unit : AllUnit dimerSnap.orientation := by
  intro q hq
  simp only [dimerSnap, List.mem_cons, List.not_mem_nil, or_false] at hq
  rcases hq with rfl | rfl <;> exact zRot_unit _

example (l : Int × ℝ) (h : orderSnapshot refFreud dimerSnap = .ok l) :
    ∃ k : ℕ, l.2 * dimerSnap.N = k ∧ k ≤ dimerSnap.N :=
  (C176_particles refFreud refFreud_correct .wide dimerSnap dimerSnap_complete
    (by simp [dimerSnap, SnapBox.array]) dimerSnap_unit (by simp [dimerSnap, missing]) l h).1

theorem dimerSnap_dist : ∀ i j, i < 2 → j < 2 → i ≠ j →
    distSq ⟨20, 20, 0, 0, 0, 0, true⟩ [(0, 0, 0), (1, 0, 0)] i j = 1 := by
  have h0 : wrap1 (0 : ℝ) = 0 := by
    simpa using wrap1_of_mem (t := 0) (k := 0) (by norm_num) (by norm_num)
  have h1 : wrap1 ((1 : ℝ) / 20) = 1 / 20 := by
    simpa using wrap1_of_mem (t := 1 / 20) (k := 0) (by norm_num) (by norm_num)
  have h2 : wrap1 ((-1 : ℝ) / 20) = -1 / 20 := by
    simpa using wrap1_of_mem (t := -1 / 20) (k := 0) (by norm_num) (by norm_num)
  intro i j hi hj hij
  interval_cases i <;> interval_cases j
  · exact absurd rfl hij
  · simp [distSq, Box.wrap, Box.frac, Box.coord, h0]
    rw [← one_div, h1]
    norm_num
  · simp [distSq, Box.wrap, Box.frac, Box.coord, h0]
    rw [h2]
    norm_num
  · exact absurd rfl hij

/-- In a pair of particles at distance 1 each has the other as its only neighbour. -/
theorem pair_found (i : Nat) (hi : i < 2) (found : List (Nat × ℝ))
    (h : IsNearest ⟨20, 20, 0, 0, 0, 0, true⟩ [(0, 0, 0), (1, 0, 0)] 3.5 8 i found) :
    found.map Prod.fst = [1 - i] := by
  have hmem : ∀ j, j ∈ found.map Prod.fst → j = 1 - i := by
    intro j hj
    obtain ⟨x, hx, rfl⟩ := List.mem_map.1 hj
    obtain ⟨h1, h2, _⟩ := h.sound x hx
    simp only [List.length_cons, List.length_nil] at h1
    omega
  have hin : 1 - i ∈ found.map Prod.fst := by
    by_contra hno
    obtain ⟨h8, _⟩ := h.complete (1 - i) (by simp) (by omega)
      (by rw [dimerSnap_dist i (1 - i) hi (by omega) (by omega)]; norm_num) hno
    have hne : found.map Prod.fst ≠ [] := by
      intro h
      have := congrArg List.length h
      rw [List.length_map, h8] at this
      cases this
    obtain ⟨j, hj⟩ := List.exists_mem_of_ne_nil _ hne
    exact hno (hmem j hj ▸ hj)
  have hnd := h.nodup
  generalize found.map Prod.fst = js at hmem hin hnd
  match js with
  | [] => cases hin
  | [j] => rw [hmem j (by simp)]
  | j :: k :: js =>
    have h1 := hmem j (by simp)
    have h2 := hmem k (by simp)
    rw [h1, h2] at hnd
    simp at hnd

/-- **C176 (refuted).**  A frame of one molecule that consists of two particles.  The molecule has no
neighbour, so the ordering marks it and the fraction is 1; `order` takes the two particles for
neighbours of each other and prints 0. -/
theorem C176_refuted :
    ¬ (∀ (freud : Freud) (s : Snapshot), freud.Correct → Complete s → AllUnit s.orientation →
      OrderAgrees freud .wide s) ∧
    ∀ freud : Freud, freud.Correct →
      orderSnapshot freud dimerSnap = .ok (7, 0) ∧
      orderingOfSnapshot freud .wide 0.9 dimerSnap = .ok [true] := by
  have key : ∀ freud : Freud, freud.Correct →
      orderSnapshot freud dimerSnap = .ok (7, 0) ∧
      orderingOfSnapshot freud .wide 0.9 dimerSnap = .ok [true] := by
    intro freud hf
    constructor
    · obtain ⟨b, res, hb, hres, hlen, hval⟩ := C63_orientational_order freud hf
        [20, 20, 1, 0, 0, 0] (by simp) [(0, 0, 0), (1, 0, 0)] [zRot 0, zRot (Real.pi / 2)] rfl
        (by simp [missing]) dimerSnap_unit 3.5 8 (by norm_num)
      cases hb
      have hdot : dot (zRot 0) (zRot (Real.pi / 2)) ^ 2 = 1 / 2 := by
        have h4 : Real.pi / 2 / 2 = Real.pi / 4 := by ring
        simp only [dot, zRot, h4, Real.cos_pi_div_four]
        simp
        rw [div_pow, Real.sq_sqrt (by norm_num)]
        norm_num
      have hbad : ∀ i, i < 2 → res[i]? = some (7 / 8) := by
        intro i hi
        obtain ⟨q, hq⟩ : ∃ q, [zRot 0, zRot (Real.pi / 2)][i]? = some q :=
          ⟨_, List.getElem?_eq_getElem (by simpa using hi)⟩
        obtain ⟨found, hfound, hr⟩ := hval i q hq
        have hp := pair_found i hi found hfound
        have hfl : found.length = 1 := by
          have := congrArg List.length hp
          simpa using this
        have hc : contribution [zRot 0, zRot (Real.pi / 2)] q (1 - i) = 0 := by
          interval_cases i <;> simp only [List.getElem?_cons_zero, List.getElem?_cons_succ,
            Option.some.injEq] at hq <;> subst hq
          · simp only [contribution, Nat.sub_zero, List.getElem?_cons_succ,
              List.getElem?_cons_zero]
            rw [dot_comm, hdot]
            norm_num
          · simp only [contribution, Nat.sub_self, List.getElem?_cons_zero]
            rw [hdot]
            norm_num
        rw [hr, paddedOrder, hfl]
        have : found.map (fun x => contribution [zRot 0, zRot (Real.pi / 2)] q x.1) = [0] := by
          rw [show (fun x : Nat × ℝ => contribution [zRot 0, zRot (Real.pi / 2)] q x.1) =
            (contribution [zRot 0, zRot (Real.pi / 2)] q) ∘ Prod.fst from rfl, ← List.map_map, hp]
          simp [hc]
        rw [this]
        norm_num
      have hres2 : res = [7 / 8, 7 / 8] := by
        match res, hlen with
        | [x, y], _ =>
          have h0 := hbad 0 (by norm_num)
          have h1 := hbad 1 (by norm_num)
          simp at h0 h1
          rw [h0, h1]
      subst hres2
      have hout : ¬ ((7 : ℝ) / 8 > 0.9) := by norm_num
      rw [orderSnapshot, orderLine]
      simp only [dimerSnap, SnapBox.array]
      rw [hres]
      simp [above, hout]
    · have hn : getNumBodies .wide dimerSnap = .ok 1 := by
        simp [getNumBodies, dimerSnap, clampNumMols, rawNumMols, pyMax, Arith.succ]
      obtain ⟨b, res, hb, hres, hlen, hval⟩ := C63_orientational_order freud hf
        [20, 20, 1, 0, 0, 0] (by simp) [(0, 0, 0)] [zRot 0] rfl (by simp [missing])
        (by intro q hq; rw [List.mem_singleton.1 hq]; exact zRot_unit _) 3.5 8 (by norm_num)
      cases hb
      obtain ⟨found, hfound, hr⟩ := hval 0 _ rfl
      have hnil : found = [] := by
        cases found with
        | nil => rfl
        | cons x xs =>
          obtain ⟨h1, h2, _⟩ := hfound.sound x List.mem_cons_self
          simp at h1
          exact absurd h1 h2
      subst hnil
      have hres1 : res = [1] := by
        match res, hlen with
        | [x], _ =>
          rw [(C63_isolated _ _ 8 (by norm_num)).1] at hr
          simpa using hr
      subst hres1
      have hin : (1 : ℝ) > 0.9 := by norm_num
      rw [orderingOfSnapshot, hoomdFrame, hn]
      simp only [dimerSnap, SnapBox.array, sliceTo]
      rw [if_pos (by norm_num), if_pos (by norm_num)]
      simp only [Int.toNat_one, List.take_succ_cons, List.take_zero]
      rw [orientOrdering, hres]
      simp [above, hin]
  refine ⟨fun h => ?_, key⟩
  obtain ⟨h1, h2⟩ := key refFreud refFreud_correct
  obtain ⟨_, h3⟩ := h refFreud dimerSnap refFreud_correct dimerSnap_complete dimerSnap_unit _ _ h1 h2
  simp at h3

end Verif.Order
