import Verif.Dynamics.Lemmas
/-!
# What the wave number changes in a row
-/

namespace Verif.Dynamics

open Verif.Motion

theorem fraction_mono (l : List ℝ) {x y : ℝ} (h : y ≤ x) : fraction l y ≤ fraction l x := by
  classical
  unfold fraction
  gcongr
  refine List.Sublist.length_le (List.monotone_filter_right l fun a ha => ?_)
  simp only [decide_eq_true_eq] at ha ⊢
  exact ha.trans_le h

theorem structuralRelax_mono (l : List ℝ) {x y : ℝ} (h : y ≤ x) : ∃ p q,
    structuralRelax false (l.map some) x = some p ∧ structuralRelax false (l.map some) y = some q ∧ q ≤ p := by
  classical
  refine ⟨_, _, rfl, rfl, ?_⟩
  gcongr
  refine List.Sublist.length_le (List.monotone_filter_right _ fun a ha => ?_)
  cases a with
  | none => simp at ha
  | some a =>
    simp only [decide_eq_true_eq] at ha ⊢
    exact ha.trans_le h

/-- Objects that differ in the wave number: the rows are the same but for the scattering function, and the
structural relaxations are less for the larger wave number. -/
theorem quantities_wave {D D' : Dyn} (hm : D'.molVector = D.molVector) (hmo : D'.motion = D.motion)
    (ht : D'.timestep = D.timestep) (hn : D'.numParticles = D.numParticles) {k k' : ℝ}
    (hk : D.waveNumber = some k) (hk' : D'.waveNumber = some k') (h0 : 0 < k) (hkk : k ≤ k') {sc : Bool}
    {argsort : List ℝ → List ℕ} {t : ℤ} {row row' : Dict Quantity Val}
    (hrow : D.quantities argsort t sc = .ok row) (hrow' : D'.quantities argsort t sc = .ok row') :
    (∀ q, q ≠ .struct → q ≠ .com_struct → q ≠ .scattering_function → Dict.get? row' q = Dict.get? row q) ∧
    (∃ x y, Dict.get? row .com_struct = some (.num (some x)) ∧
      Dict.get? row' .com_struct = some (.num (some y)) ∧ y ≤ x) ∧
    ((Dict.get? row .struct = some (.num none) ∧ Dict.get? row' .struct = some (.num none)) ∨
      ∃ x y, Dict.get? row .struct = some (.num (some x)) ∧
        Dict.get? row' .struct = some (.num (some y)) ∧ y ≤ x) := by
  have hpi := Real.pi_pos
  have hk0 : 0 < k' := h0.trans_le hkk
  have hdist : Real.pi / (2 * k') ≤ Real.pi / (2 * k) := by gcongr
  have e1 : D'.displacement2 = D.displacement2 := by unfold Dyn.displacement2; rw [hmo]
  have e2 : D'.rotation2 = D.rotation2 := by unfold Dyn.rotation2; rw [hmo]
  have e3 : D'.displacement = D.displacement := by unfold Dyn.displacement; rw [hmo]
  have e4 : D'.rotation = D.rotation := by unfold Dyn.rotation; rw [hmo]
  obtain ⟨al, isf, distance, ar, ga, ov, st, ha, -, hdi, har, hg, ho, hst, rfl⟩ := quantities_ok hrow
  obtain ⟨al', isf', distance', ar', ga', ov', st', ha', -, hdi', har', hg', ho', hst', rfl⟩ :=
    quantities_ok hrow'
  have f1 : D'.alpha = D.alpha := by unfold Dyn.alpha; rw [e1]
  have f2 : D'.alphaRot = D.alphaRot := by unfold Dyn.alphaRot; rw [e2]
  have f3 : D'.gamma = D.gamma := by unfold Dyn.gamma; rw [e1, e2]
  rw [f1, ha] at ha'
  rw [f2, har] at har'
  rw [f3, hg] at hg'
  rw [e3, e4, ho] at ho'
  obtain rfl := Except.ok.inj ha'
  obtain rfl := Except.ok.inj har'
  obtain rfl := Except.ok.inj hg'
  obtain rfl := Except.ok.inj ho'
  have hd1 : D.distance = .ok (some (Real.pi / (2 * k))) := by
    unfold Dyn.distance; rw [hk]; simp only; rw [if_neg h0.ne']
  have hd2 : D'.distance = .ok (some (Real.pi / (2 * k'))) := by
    unfold Dyn.distance; rw [hk']; simp only; rw [if_neg hk0.ne']
  obtain rfl : distance = some (Real.pi / (2 * k)) := by
    rw [hd1] at hdi; exact (Except.ok.inj hdi).symm
  obtain rfl : distance' = some (Real.pi / (2 * k')) := by
    rw [hd2] at hdi'; exact (Except.ok.inj hdi').symm
  have g1 : D'.timeDelta t = D.timeDelta t := by unfold Dyn.timeDelta; rw [ht]
  have g2 : D'.msd = D.msd := by unfold Dyn.msd; rw [e1]
  have g3 : D'.mfd = D.mfd := by unfold Dyn.mfd; rw [e1]
  have g5 : D'.meanRotation = D.meanRotation := by unfold Dyn.meanRotation; rw [e4]
  have g6 : D'.msr = D.msr := by unfold Dyn.msr; rw [e2]
  have g7 : D'.rot1 = D.rot1 := by unfold Dyn.rot1; rw [e4]
  have g8 : D'.rot2 = D.rot2 := by unfold Dyn.rot2; rw [e4]
  refine ⟨?_, ?_, ?_⟩
  · intro q h1 h2 h3
    rw [g1, g2, g3, g5, g6, g7, g8, e3]
    cases q <;> first | rfl | exact absurd rfl h1 | exact absurd rfl h2 | exact absurd rfl h3
  · obtain ⟨p, q, h1, h2, h3⟩ := structuralRelax_mono D.displacement hdist
    refine ⟨p, q, ?_, ?_, h3⟩
    · show some (Val.num (comVal D (some (Real.pi / (2 * k))))) = _
      rw [comVal, h1]
    · show some (Val.num (comVal D' (some (Real.pi / (2 * k'))))) = _
      rw [comVal, e3, h2]
  · show (some (Val.num st) = _ ∧ some (Val.num st') = _) ∨
      ∃ x y, some (Val.num st) = _ ∧ some (Val.num st') = _ ∧ y ≤ x
    unfold structVal at hst hst'
    rw [hm, hmo] at hst'
    simp only [Option.isSome_some, Bool.true_and] at hst hst'
    split at hst
    · rename_i hc
      rw [if_pos hc] at hst'
      right
      unfold Dyn.structRelax at hst hst'
      rw [hd1] at hst
      rw [hd2, hm, hmo, hn] at hst'
      simp only at hst hst'
      generalize D.molVector = mv at hst hst'
      cases mv with
      | none => cases hst
      | some mv =>
        simp only at hst hst'
        generalize molecule2particles D.motion.deltaT _ mv = A at hst hst'
        cases A with
        | error e => cases hst
        | ok A =>
          simp only at hst hst'
          generalize molecule2particles (D.motion.deltaT.map _) _ mv = B at hst hst'
          cases B with
          | error e => cases hst
          | ok B =>
            simp only at hst hst'
            generalize bcast _ A B = l at hst hst'
            cases l with
            | error e => cases hst
            | ok l =>
              obtain rfl : some (fraction l (Real.pi / (2 * k))) = st := Except.ok.inj hst
              obtain rfl : some (fraction l (Real.pi / (2 * k'))) = st' := Except.ok.inj hst'
              exact ⟨_, _, rfl, rfl, fraction_mono l hdist⟩
    · rename_i hc
      rw [if_neg hc] at hst'
      obtain rfl := Except.ok.inj hst
      obtain rfl := Except.ok.inj hst'
      exact Or.inl ⟨rfl, rfl⟩

end Verif.Dynamics
