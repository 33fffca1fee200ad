import Mathlib.Tactic.NormNum
import Verif.Dynamics.RunLemmas
import Verif.Dynamics.Particles
import Verif.Dynamics.OverlapProps
/-!
# C32: uniform shifts and relabelling of the molecules
-/

namespace Verif.Dynamics

open Verif.Motion Quaternion

theorem sumT_shift {N : ℕ} (b : Box) (s : ℕ → Fin N → V3) (w : V3) (n : ℕ) :
    sumT b (fun i m => s i m + w) n = sumT b s n := by
  funext m
  unfold sumT
  simp

theorem quantities_prevPos (argsort : List ℝ → List ℕ) (D : Dyn) (p : List V3) (t : ℤ) (sc : Bool) :
    Dyn.quantities argsort { D with motion := { D.motion with prevPos := p } } t sc =
      D.quantities argsort t sc := rfl

/-- **C32**, shifts: adding the same vector to all positions of all frames changes nothing of what
`compute_all` reports. -/
theorem C32_shift {N : ℕ} (hN : 0 < N) (argsort : List ℝ → List ℕ) (c : Cell) (mol : Option Mol)
    (k : Option ℝ) (res : ℕ) (t0 t : ℤ) (s : ℕ → Fin N → V3) (o : ℕ → Option (Fin N → Quat))
    (ho : Unit o) (n : ℕ) (sc : Bool) (w : V3) :
    rowAt argsort c.array mol k res t0 (frame (fun i m => s i m + w) o 0)
        (frames (fun i m => s i m + w) o 1 (n + 1)) t (frame (fun i m => s i m + w) o (n + 1)) sc =
      rowAt argsort c.array mol k res t0 (frame s o 0) (frames s o 1 (n + 1)) t
        (frame s o (n + 1)) sc := by
  obtain ⟨b, hb⟩ : ∃ b, createFreudBox c.array (is2d mol) = .ok b := ⟨_, rfl⟩
  rw [rowAt_eq hN argsort hb k res t0 t s o ho n sc,
    rowAt_eq hN argsort hb k res t0 t _ o ho n sc,
    ← quantities_prevPos argsort (dynAfter b mol k res t0 s o (n + 1))
      (List.ofFn (fun m => s (n + 1) m + w))]
  unfold dynAfter
  simp only [sumT_shift]

/-- Ten molecules of which one moves, shifted by 100 along y. -/
example (argsort : List ℝ → List ℕ) :
    rowAt argsort [10, 10, 1, 0, 0, 0] (some exMol) (some 2) 360 0
        (frame (fun i m => exS i m + (0, 100, 0)) exO 0) (frames (fun i m => exS i m + (0, 100, 0)) exO 1 2) 5
        (frame (fun i m => exS i m + (0, 100, 0)) exO 2) true =
      rowAt argsort [10, 10, 1, 0, 0, 0] (some exMol) (some 2) 360 0 (frame exS exO 0) (frames exS exO 1 2) 5
        (frame exS exO 2) true :=
  C32_shift (by norm_num) argsort ⟨10, 10, 1, 0, 0, 0, true⟩ _ _ _ _ _ exS exO exO_unit 1 true (0, 100, 0)

/-! ## Relabelling -/

/-- The trajectory with molecule `π m` under the number `m`. -/
def relabelS {N : ℕ} (π : Equiv.Perm (Fin N)) (s : ℕ → Fin N → V3) : ℕ → Fin N → V3 :=
  fun i m => s i (π m)

/-- The orientations with molecule `π m` under the number `m`. -/
def relabelO {N : ℕ} (π : Equiv.Perm (Fin N)) (o : ℕ → Option (Fin N → Quat)) :
    ℕ → Option (Fin N → Quat) :=
  fun i => (o i).map (fun q m => q (π m))

theorem sumT_relabel {N : ℕ} (b : Box) (π : Equiv.Perm (Fin N)) (s : ℕ → Fin N → V3) (n : ℕ) :
    sumT b (relabelS π s) n = fun m => sumT b s n (π m) := rfl

theorem rotInc_relabel {N : ℕ} (π : Equiv.Perm (Fin N)) (o : ℕ → Option (Fin N → Quat)) (i : ℕ)
    (m : Fin N) : rotInc (relabelO π o i) (relabelO π o (i + 1)) m =
      rotInc (o i) (o (i + 1)) (π m) := by
  unfold relabelO
  cases o i <;> cases o (i + 1) <;> rfl

theorem sumR_relabel {N : ℕ} (π : Equiv.Perm (Fin N)) (o : ℕ → Option (Fin N → Quat)) (n : ℕ) :
    sumR (relabelO π o) n = fun m => sumR o n (π m) := by
  funext m
  unfold sumR
  simp only [rotInc_relabel]

theorem unit_relabel {N : ℕ} {o : ℕ → Option (Fin N → Quat)} (ho : Unit o)
    (π : Equiv.Perm (Fin N)) : Unit (relabelO π o) := by
  intro i q hq m
  unfold relabelO at hq
  cases h : o i with
  | none => rw [h] at hq; cases hq
  | some p =>
    rw [h] at hq
    obtain rfl := Option.some.inj hq
    exact ho i p h (π m)

/-- Two objects that differ by the numbering of the molecules. -/
structure Relabelled {N : ℕ} (π : Equiv.Perm (Fin N)) (D D' : Dyn) (d r : Fin N → V3) : Prop where
  hd : D.motion.deltaT = List.ofFn d
  hr : D.motion.deltaR = List.ofFn r
  hd' : D'.motion.deltaT = List.ofFn (fun m => d (π m))
  hr' : D'.motion.deltaR = List.ofFn (fun m => r (π m))
  ht : D'.timestep = D.timestep
  hk : D'.waveNumber = D.waveNumber
  hw : D'.waveVector = D.waveVector

theorem avg_perm' {N : ℕ} (π : Equiv.Perm (Fin N)) (g : V3 → ℝ) (d : Fin N → V3) :
    avg (fun m => g (d (π m))) = avg (fun m => g (d m)) := avg_perm π (fun m => g (d m))

theorem relabel_alpha {N : ℕ} {π : Equiv.Perm (Fin N)} {D D' : Dyn} {d r : Fin N → V3}
    (h : Relabelled π D D' d r) : D'.alpha = D.alpha ∧ D'.alphaRot = D.alphaRot ∧
      D'.gamma = D.gamma := by
  unfold Dyn.alpha Dyn.alphaRot Dyn.gamma
  simp only [displacement2_ofFn h.hd, displacement2_ofFn h.hd', rotation2_ofFn h.hr,
    rotation2_ofFn h.hr', zipWith_ofFn, map_ofFn', mean_ofFn]
  rw [avg_perm π (fun m => len2 (d m)), avg_perm π (fun m => len2 (d m) ^ 2),
    avg_perm π (fun m => len2 (r m)), avg_perm π (fun m => len2 (r m) ^ 2),
    avg_perm π (fun m => len2 (d m) * len2 (r m))]
  exact ⟨rfl, rfl, rfl⟩

theorem relabel_isf {N : ℕ} {π : Equiv.Perm (Fin N)} {D D' : Dyn} {d r : Fin N → V3}
    (h : Relabelled π D D' d r) (sc : Bool) : isfVal D' sc = isfVal D sc := by
  unfold isfVal Dyn.isf
  rw [h.hk, h.hw, h.hd, h.hd']
  split
  · cases D.waveVector with
    | none => rfl
    | some ws =>
      simp only [map_ofFn']
      have hp : (ws.flatMap (fun w => List.ofFn (fun m =>
          Real.cos (w.1 * (d (π m)).1 + w.2 * (d (π m)).2.1)))).Perm
          (ws.flatMap (fun w => List.ofFn (fun m =>
          Real.cos (w.1 * (d m).1 + w.2 * (d m).2.1)))) := by
        apply List.Perm.flatMap_left
        intro w _
        exact Equiv.Perm.ofFn_comp_perm π (fun m =>
          Real.cos (w.1 * (d m).1 + w.2 * (d m).2.1))
      unfold mean
      rw [hp.sum_eq, hp.length_eq]
  · rfl

theorem relabel_com {N : ℕ} {π : Equiv.Perm (Fin N)} {D D' : Dyn} {d r : Fin N → V3}
    (h : Relabelled π D D' d r) (x : Option ℝ) : comVal D' x = comVal D x := by
  unfold comVal
  cases x with
  | none => rfl
  | some x =>
    simp only
    rw [structuralRelax_eq, structuralRelax_eq, displacement_ofFn h.hd, displacement_ofFn h.hd',
      map_ofFn', map_ofFn']
    have hp : (List.ofFn (fun m => some (len (d (π m))))).Perm
        (List.ofFn (fun m => some (len (d m)))) :=
      Equiv.Perm.ofFn_comp_perm π (fun m => some (len (d m)))
    rw [hp.countP_eq, hp.length_eq]

theorem relabel_row {N : ℕ} {π : Equiv.Perm (Fin N)} {D D' : Dyn} {d r : Fin N → V3}
    (h : Relabelled π D D' d r) {argsort : List ℝ → List ℕ} {t : ℤ} {sc : Bool}
    {row row' : Dict Quantity Val} (hrow : D.quantities argsort t sc = .ok row)
    (hrow' : D'.quantities argsort t sc = .ok row') (q : Quantity) (h1 : q ≠ .overlap)
    (h2 : q ≠ .struct) : Dict.get? row' q = Dict.get? row q := by
  obtain ⟨al, isf, distance, ar, ga, ov, st, ha, hi, hdi, har, hg, -, -, rfl⟩ := quantities_ok hrow
  obtain ⟨al', isf', distance', ar', ga', ov', st', ha', hi', hdi', har', hg', -, -, rfl⟩ :=
    quantities_ok hrow'
  obtain ⟨e1, e2, e3⟩ := relabel_alpha h
  rw [e1, ha] at ha'
  rw [e2, har] at har'
  rw [e3, hg] at hg'
  rw [relabel_isf h, hi] at hi'
  have hdist : D'.distance = D.distance := by unfold Dyn.distance; rw [h.hk]
  rw [hdist, hdi] at hdi'
  obtain rfl := Except.ok.inj ha'
  obtain rfl := Except.ok.inj har'
  obtain rfl := Except.ok.inj hg'
  obtain rfl := Except.ok.inj hi'
  obtain rfl := Except.ok.inj hdi'
  have ht : D'.timeDelta t = D.timeDelta t := by unfold Dyn.timeDelta; rw [h.ht]
  rw [relabel_com h, ht, meanDisp_eq h.hd, meanDisp_eq h.hd', msd_eq h.hd, msd_eq h.hd', mfd_eq h.hd,
    mfd_eq h.hd', meanRot_eq h.hr, meanRot_eq h.hr', msr_eq h.hr, msr_eq h.hr', rot1_eq h.hr,
    rot1_eq h.hr', rot2_eq h.hr, rot2_eq h.hr',
    avg_perm π (fun m => len2 (d m)), avg_perm π (fun m => len2 (d m) ^ 2),
    avg_perm π (fun m => len2 (r m)), avg_perm π (fun m => len (d m)),
    avg_perm π (fun m => len (r m)), avg_perm π (fun m => Real.cos (len (r m))),
    avg_perm π (fun m => Real.cos (2 * len (r m)))]
  cases q <;> first | rfl | exact absurd rfl h1 | exact absurd rfl h2

theorem relabelled_dynAfter {N : ℕ} (π : Equiv.Perm (Fin N)) (b : Box) (mol : Option Mol)
    (k : Option ℝ) (res : ℕ) (t0 : ℤ) (s : ℕ → Fin N → V3) (o : ℕ → Option (Fin N → Quat)) (n : ℕ) :
    Relabelled π (dynAfter b mol k res t0 s o n)
      (dynAfter b mol k res t0 (relabelS π s) (relabelO π o) n) (sumT b s n) (sumR o n) :=
  ⟨rfl, rfl, rfl, by simp only [dynAfter, sumR_relabel], rfl, rfl, rfl⟩

/-- **C32**, relabelling, partial: numbering the molecules differently in all frames does not change
any reported quantity except "overlap" and "struct".  Missing: "struct", for which it is false
(`C32_relabel_struct_refuted`). -/
theorem C32_relabel_partial {N : ℕ} (hN : 0 < N) (π : Equiv.Perm (Fin N))
    (argsort : List ℝ → List ℕ) (c : Cell) (mol : Option Mol)
    (k : Option ℝ) (res : ℕ) (t0 t : ℤ) (s : ℕ → Fin N → V3) (o : ℕ → Option (Fin N → Quat))
    (ho : Unit o) (n : ℕ) (sc : Bool) {row row' : Dict Quantity Val}
    (h : rowAt argsort c.array mol k res t0 (frame s o 0) (frames s o 1 (n + 1)) t
        (frame s o (n + 1)) sc = .ok row)
    (h' : rowAt argsort c.array mol k res t0 (frame (relabelS π s) (relabelO π o) 0)
        (frames (relabelS π s) (relabelO π o) 1 (n + 1)) t
        (frame (relabelS π s) (relabelO π o) (n + 1)) sc = .ok row') (q : Quantity)
    (h1 : q ≠ .overlap) (h2 : q ≠ .struct) :
    Dict.get? row' q = Dict.get? row q := by
  obtain ⟨b, hb⟩ : ∃ b, createFreudBox c.array (is2d mol) = .ok b := ⟨_, rfl⟩
  rw [rowAt_eq hN argsort hb k res t0 t s o ho n sc] at h
  rw [rowAt_eq hN argsort hb k res t0 t _ _ (unit_relabel ho π) n sc] at h'
  exact relabel_row (relabelled_dynAfter π b mol k res t0 s o (n + 1)) h h' q h1 h2

/-- The hypotheses of `C32_relabel_partial` are met by the example, with two molecules exchanged. -/
example (argsort : List ℝ → List ℕ) : ∃ (c : Cell) (row row' : Dict Quantity Val),
    rowAt argsort c.array (some exMol) (some 2) 360 0 (frame exS exO 0) (frames exS exO 1 4) 5
        (frame exS exO 4) true = .ok row ∧
    rowAt argsort c.array (some exMol) (some 2) 360 0
        (frame (relabelS (Equiv.swap 0 1) exS) (relabelO (Equiv.swap 0 1) exO) 0)
        (frames (relabelS (Equiv.swap 0 1) exS) (relabelO (Equiv.swap 0 1) exO) 1 4) 5
        (frame (relabelS (Equiv.swap 0 1) exS) (relabelO (Equiv.swap 0 1) exO) 4) true =
          .ok row' ∧ relabelS (Equiv.swap 0 1) exS ≠ exS := by
  obtain ⟨row, h⟩ := C38_succeeds (N := 10) le_rfl argsort ⟨10, 10, 1, 0, 0, 0, true⟩ (some exMol)
    (by intro m hm; obtain rfl := Option.some.inj hm; simp [exMol]) (some 2) (by simp) 360 0 5 exS
    exO exO_unit 3 true
  obtain ⟨row', h'⟩ := C38_succeeds (N := 10) le_rfl argsort ⟨10, 10, 1, 0, 0, 0, true⟩ (some exMol)
    (by intro m hm; obtain rfl := Option.some.inj hm; simp [exMol]) (some 2) (by simp) 360 0 5
    (relabelS (Equiv.swap 0 1) exS) (relabelO (Equiv.swap 0 1) exO)
    (unit_relabel exO_unit (Equiv.swap 0 1)) 3 true
  refine ⟨_, row, row', h, h', ?_⟩
  intro h
  have := congrFun (congrFun h 1) 1
  simp [relabelS, exS] at this

theorem mobile_perm {N : ℕ} (π : Equiv.Perm (Fin N)) (f : Fin N → ℝ) (k : ℕ) (m : Fin N) :
    Mobile (fun m => f (π m)) k m ↔ Mobile f k (π m) := by
  unfold Mobile
  have : (Finset.univ.filter (fun j => f (π m) < f (π j))).card =
      (Finset.univ.filter (fun j => f (π m) < f j)).card := by
    rw [← Finset.card_map π.toEmbedding]
    congr 1
    ext j
    simp only [Finset.mem_map, Finset.mem_filter, Finset.mem_univ, true_and, Equiv.coe_toEmbedding]
    constructor
    · rintro ⟨i, hi, rfl⟩; exact hi
    · intro hj; exact ⟨π.symm j, by simpa using hj, by simp⟩
  rw [this]

/-- **C32**, relabelling and "overlap": it does not change either when no two molecules moved
equally far and no two turned equally far.  (With ties it depends on the order in which equal values
are sorted.) -/
theorem C32_relabel_overlap {N : ℕ} (hN : 10 ≤ N) (π : Equiv.Perm (Fin N))
    {argsort : List ℝ → List ℕ} (hs : Sorts argsort) (f g : Fin N → ℝ)
    (hf : Function.Injective f) (hg : Function.Injective (fun m => |g m|)) :
    mobileOverlap argsort (List.ofFn (fun m => f (π m))) (List.ofFn (fun m => g (π m))) =
      mobileOverlap argsort (List.ofFn f) (List.ofFn g) := by
  classical
  have hk := one_le_num hN
  rw [C37_value hs f g hf hg _ hk, C37_value hs (fun m => f (π m)) (fun m => g (π m)) (hf.comp π.injective)
    (hg.comp π.injective) _ hk]
  congr 3
  rw [← Finset.card_map π.toEmbedding]
  congr 1
  ext j
  simp only [Finset.mem_map, Finset.mem_filter, Finset.mem_univ, true_and, Equiv.coe_toEmbedding,
    mobile_perm π f, mobile_perm π (fun m => |g m|)]
  constructor
  · rintro ⟨i, hi, rfl⟩; exact hi
  · intro hj; exact ⟨π.symm j, by simpa using hj, by simp⟩

/-- Twenty molecules numbered backwards. -/
example {argsort : List ℝ → List ℕ} (hs : Sorts argsort) :
    mobileOverlap argsort (List.ofFn (fun m : Fin 20 => ((Fin.revPerm m : Fin 20) : ℝ)))
      (List.ofFn (fun m : Fin 20 => 2 * ((Fin.revPerm m : Fin 20) : ℝ))) =
    mobileOverlap argsort (List.ofFn (fun m : Fin 20 => (m : ℝ))) (List.ofFn (fun m : Fin 20 => 2 * (m : ℝ))) :=
  C32_relabel_overlap (by norm_num) Fin.revPerm hs (fun m => (m : ℝ)) (fun m => 2 * (m : ℝ))
    (fun i j h => Fin.ext (by simpa using h))
    (fun i j h => Fin.ext (by
      simp only [abs_mul, abs_two, Nat.abs_cast, mul_eq_mul_left_iff, Nat.cast_inj] at h
      simpa using h))

/-- The two trajectories of `C32_relabel_struct_refuted`: molecule `a` moves by 2 along y and makes
half a turn, the other one does nothing. -/
theorem struct_one_moves (a : Fin 2) : ∃ (D : Dyn) (c : Cell) (v : Fin 2 → V3),
    Plane D c (Real.pi / 2) v (fun i m => if m = a then (0, (i : ℝ), 0) else 0)
      (fun i m => if m = a then i * (Real.pi / 2) else 0) 2 ∧
      D.structRelax = .ok (if a = 1 then 1 / 2 else 1 / 4) ∧
      c = ⟨10, 10, 1, 0, 0, 0, true⟩ ∧ v = fun p => if p = 0 then (0, -1, 0) else (0, 1, 0) := by
  classical
  have hpi := Real.pi_pos
  let c : Cell := ⟨10, 10, 1, 0, 0, 0, true⟩
  let θ : ℕ → Fin 2 → ℝ := fun i m => if m = a then i * (Real.pi / 2) else 0
  let u : ℕ → Fin 2 → V3 := fun i m => if m = a then (0, (i : ℝ), 0) else 0
  let v : Fin 2 → V3 := fun p => if p = 0 then (0, -1, 0) else (0, 1, 0)
  obtain ⟨D, hD⟩ := plane_exists (N := 2) two_pos c (by simp [c, Cell.Proper]) rfl (Real.pi / 2)
    v u θ 2 (fun i m => by by_cases h : m = a <;> simp [u, h])
    (fun i _ m => by
      by_cases h : m = a
      · refine ⟨0, 1 / 10, 0, by simp, by rw [abs_lt]; constructor <;> norm_num, by simp, ?_⟩
        simp [u, h, c, Cell.comb]
      · exact ⟨0, 0, 0, by simp, by simp, by simp, by simp [u, h, comb_zero]⟩)
    (fun i _ m => by
      by_cases h : m = a
      · simp only [θ, h, if_true]
        push_cast
        rw [show ((i : ℝ) + 1) * (Real.pi / 2) - i * (Real.pi / 2) = Real.pi / 2 by ring, abs_lt]
        constructor <;> linarith
      · simp [θ, h, hpi])
  have hdist : Real.pi / (2 * (Real.pi / 2)) = 1 := by field_simp
  have h2 : 2 * (Real.pi / 2) = Real.pi := by ring
  have hst := hD.inState two_pos
  refine ⟨D, c, v, hD, ?_, rfl, rfl⟩
  rw [structRelax_ofFn two_pos two_pos D _ _ hst.hd hst.hr v hst.hv hst.hn _
    (hst.distance (by positivity)), hdist]
  have : (Finset.univ.filter (fun n : Fin (2 * 2) =>
      len (turned (structQuat ((θ 2 n.modNat - θ 0 n.modNat, 0, 0))) (v n.divNat) +
        (u 2 (repeatIx n) - u 0 (repeatIx n)) - v n.divNat) < 1)) =
        if a = 1 then {0, 3} else {3} := by
    ext n
    simp only [Finset.mem_filter, Finset.mem_univ, true_and, len_lt_one, structQuat_x]
    fin_cases a <;> fin_cases n <;>
      simp [θ, u, v, turnedX, len2, Fin.modNat, Fin.divNat, repeatIx, h2] <;> norm_num
  rw [this]
  split
  · rw [Finset.card_pair (by decide)]
    norm_num
  · rw [Finset.card_singleton]
    norm_num

/-- **C32**, relabelling, is false for "struct": exchanging the two molecules of a trajectory turns
it from 1/2 into 1/4. -/
theorem C32_relabel_struct_refuted : ∃ (D D' : Dyn) (c : Cell) (v : Fin 2 → V3)
    (u : ℕ → Fin 2 → V3) (θ : ℕ → Fin 2 → ℝ),
    Plane D c (Real.pi / 2) v u θ 2 ∧
      Plane D' c (Real.pi / 2) v (fun i m => u i (Equiv.swap 0 1 m))
        (fun i m => θ i (Equiv.swap 0 1 m)) 2 ∧
      D.structRelax = .ok (1 / 2) ∧ D'.structRelax = .ok (1 / 4) := by
  obtain ⟨D, c, v, hD, hs, rfl, rfl⟩ := struct_one_moves 1
  obtain ⟨D', c', v', hD', hs', rfl, rfl⟩ := struct_one_moves 0
  refine ⟨D, D', _, _, _, _, hD, ?_, by simpa using hs, by simpa using hs'⟩
  have e : ∀ m : Fin 2, (Equiv.swap 0 1 m = 1) = (m = 0) := by decide
  simpa only [e] using hD'

/-- **C32**, "struct", partial: it does not depend on the numbering when molecules have one
particle. -/
theorem C32_relabel_struct_partial {N : ℕ} (hN : 0 < N) (π : Equiv.Perm (Fin N)) {D D' : Dyn}
    {d r : Fin N → V3} {v : Fin 1 → V3} {k : ℝ} (hk : k ≠ 0) (h : InState D d r v k)
    (h' : InState D' (fun m => d (π m)) (fun m => r (π m)) v k) :
    D'.structRelax = D.structRelax := by
  classical
  rw [C39_struct_partial one_pos hN (Or.inr rfl) h hk,
    C39_struct_partial one_pos hN (Or.inr rfl) h' hk]
  unfold structWanted stayed
  congr 3
  rw [← Finset.card_map (Equiv.prodCongr π (Equiv.refl (Fin 1))).toEmbedding]
  congr 1
  ext j
  simp only [Finset.mem_map, Finset.mem_filter, Finset.mem_univ, true_and, Equiv.coe_toEmbedding]
  constructor
  · rintro ⟨i, hi, rfl⟩; exact hi
  · intro hj
    exact ⟨(π.symm j.1, j.2), by simpa using hj, by simp⟩

/-- Three molecules of one particle, two of them exchanged. -/
example : ∃ D D' : Dyn, InState D (fun m : Fin 3 => ((m : ℝ), 0, 0)) (fun m => (0, 0, (m : ℝ)))
    (fun _ : Fin 1 => (1, 0, 0)) 2 ∧
    InState D' (fun m : Fin 3 => (((Equiv.swap 0 1 m : Fin 3) : ℝ), 0, 0))
      (fun m => (0, 0, ((Equiv.swap 0 1 m : Fin 3) : ℝ))) (fun _ : Fin 1 => (1, 0, 0)) 2 ∧
    D'.structRelax = D.structRelax := by
  obtain ⟨D, hD⟩ := inState_exists (N := 3) (K := 1) (fun m : Fin 3 => ((m : ℝ), 0, 0)) (fun m => (0, 0, (m : ℝ)))
    (fun _ : Fin 1 => (1, 0, 0)) 2
  obtain ⟨D', hD'⟩ := inState_exists (N := 3) (K := 1)
    (fun m : Fin 3 => (((Equiv.swap 0 1 m : Fin 3) : ℝ), 0, 0)) (fun m => (0, 0, ((Equiv.swap 0 1 m : Fin 3) : ℝ)))
    (fun _ : Fin 1 => (1, 0, 0)) 2
  exact ⟨D, D', hD, hD', C32_relabel_struct_partial (by norm_num) (Equiv.swap 0 1) (by norm_num) hD hD'⟩

end Verif.Dynamics
