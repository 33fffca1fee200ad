import Mathlib.Algebra.BigOperators.Field
import Verif.Dynamics.StructLemmas
/-!
# Lemmas on whole trajectories
-/

namespace Verif.Dynamics

open Verif.Motion Quaternion

/-- The number of dimensions `Dynamics` assumes. -/
def is2d (mol : Option Mol) : Bool :=
  match mol with
  | none => true
  | some m => decide (m.dimensions = 2)

theorem addFrames_motion (d : Dyn) (fs : List Frame) :
    addFrames d fs = match addAll d.motion fs with
      | .ok m => .ok { d with motion := m }
      | .error e => .error e := by
  induction fs generalizing d with
  | nil => rfl
  | cons f fs ih =>
    simp only [addFrames, addAll, Dyn.add]
    rcases d.motion.add f.1 f.2 with ⟨m, _ | e⟩
    · simp only
      rw [ih]
    · rfl

/-- The object after the frames `0, …, n`. -/
noncomputable def dynAfter {N : ℕ} (b : Box) (mol : Option Mol) (k : Option ℝ) (res : ℕ) (t0 : ℤ)
    (s : ℕ → Fin N → V3) (o : ℕ → Option (Fin N → Quat)) (n : ℕ) : Dyn :=
  ⟨mol.map (·.positions), ⟨b, List.ofFn (sumT b s n), List.ofFn (sumR o n), List.ofFn (s n),
    (o n).map List.ofFn⟩, t0, N, k, k.map (fun k => createWaveVector k res)⟩

theorem new_track {N : ℕ} (hN : 0 < N) {box : List ℝ} {b : Box} {mol : Option Mol}
    (hb : createFreudBox box (is2d mol) = .ok b) (k : Option ℝ) (res : ℕ) (t0 : ℤ)
    (s : ℕ → Fin N → V3) (o : ℕ → Option (Fin N → Quat)) (ho : Unit o) (n : ℕ) :
    (match Dyn.new t0 box (frame s o 0).1 (frame s o 0).2 mol k res with
      | .ok d => addFrames d (frames s o 1 (n + 1))
      | .error e => .error e) = .ok (dynAfter b mol k res t0 s o n) := by
  have h := track_closed hN b s o ho n
  unfold track at h
  unfold Dyn.new
  rw [if_neg (by simp [frame]; omega)]
  change (match (match createFreudBox box (is2d mol) with
    | .error e => .error e
    | .ok b => (match Tracked.new b (frame s o 0).1 (frame s o 0).2 with
      | .error e => .error e
      | .ok motion => .ok (⟨mol.map (·.positions), motion, t0, (frame s o 0).1.length, k,
          k.map (fun k => createWaveVector k res)⟩ : Dyn)) : Except PyErr Dyn) with
      | .ok d => addFrames d (frames s o 1 (n + 1))
      | .error e => .error e) = _
  rw [hb]
  simp only
  revert h
  cases Tracked.new b (frame s o 0).1 (frame s o 0).2 with
  | error e => intro h; cases h
  | ok m =>
    intro h
    simp only at h ⊢
    rw [addFrames_motion]
    simp only [h]
    simp [dynAfter, frame]

theorem addFrames_append (d : Dyn) (l l' : List Frame) :
    addFrames d (l ++ l') = match addFrames d l with
      | .ok d' => addFrames d' l'
      | .error e => .error e := by
  induction l generalizing d with
  | nil => rfl
  | cons f fs ih =>
    simp only [List.cons_append, addFrames]
    rcases d.add f.1 f.2 with ⟨d', _ | e⟩
    · exact ih d'
    · rfl

/-- `dynAfter` follows itself. -/
theorem add_dynAfter {N : ℕ} (b : Box) (mol : Option Mol) (k : Option ℝ)
    (res : ℕ) (t0 : ℤ) (s : ℕ → Fin N → V3) (o : ℕ → Option (Fin N → Quat)) (ho : Unit o) (n : ℕ) :
    (dynAfter b mol k res t0 s o n).add (frame s o (n + 1)).1 (frame s o (n + 1)).2 =
      (dynAfter b mol k res t0 s o (n + 1), none) := by
  unfold Dyn.add dynAfter frame
  simp only
  rw [add_ofFn b _ _ _ _ _ _ (fun p hp => ho n p hp) (fun p hp => ho (n + 1) p hp)]
  have e1 : (fun m => sumT b s n m - b.wrap (s n m - s (n + 1) m)) = sumT b s (n + 1) := by
    funext m
    simp only [sumT, Finset.sum_range_succ]
    abel
  have e2 : (fun m => sumR o n m + rotInc (o n) (o (n + 1)) m) = sumR o (n + 1) := by
    funext m
    simp only [sumR, Finset.sum_range_succ]
  rw [e1, e2]

theorem computeAll_dynAfter {N : ℕ} (argsort : List ℝ → List ℕ) (b : Box) (mol : Option Mol)
    (k : Option ℝ) (res : ℕ) (t0 t : ℤ) (s : ℕ → Fin N → V3) (o : ℕ → Option (Fin N → Quat))
    (ho : Unit o) (n : ℕ) (sc : Bool) :
    (dynAfter b mol k res t0 s o n).computeAll argsort t (frame s o (n + 1)).1
        (frame s o (n + 1)).2 sc =
      (dynAfter b mol k res t0 s o (n + 1),
        (dynAfter b mol k res t0 s o (n + 1)).quantities argsort t sc) := by
  unfold Dyn.computeAll
  rw [add_dynAfter b mol k res t0 s o ho n]

theorem rowAt_eq {N : ℕ} (hN : 0 < N) (argsort : List ℝ → List ℕ) {box : List ℝ} {b : Box}
    {mol : Option Mol} (hb : createFreudBox box (is2d mol) = .ok b) (k : Option ℝ) (res : ℕ)
    (t0 t : ℤ) (s : ℕ → Fin N → V3) (o : ℕ → Option (Fin N → Quat)) (ho : Unit o) (n : ℕ)
    (sc : Bool) :
    rowAt argsort box mol k res t0 (frame s o 0) (frames s o 1 (n + 1)) t (frame s o (n + 1)) sc =
      (dynAfter b mol k res t0 s o (n + 1)).quantities argsort t sc := by
  have h := new_track hN hb k res t0 s o ho n
  unfold rowAt
  revert h
  cases Dyn.new t0 box (frame s o 0).1 (frame s o 0).2 mol k res with
  | error e => intro h; cases h
  | ok d =>
    intro h
    simp only at h ⊢
    rw [h]
    simp only
    rw [computeAll_dynAfter argsort b mol k res t0 t s o ho n sc]

theorem ratio_ok_of {a b : ℝ} (h : b = 0 → a = 0) : ∃ x, ratioMinusOne a b = .ok x := by
  by_cases hb : b = 0
  · rw [hb, h hb]; exact ⟨_, ratio_zero⟩
  · exact ⟨_, ratio_of_ne hb⟩

theorem avg_eq_zero {N : ℕ} {f : Fin N → ℝ} (h : ∀ m, 0 ≤ f m) (h0 : avg f = 0) : ∀ m, f m = 0 := by
  intro m
  by_contra hm
  have := avg_pos h (lt_of_le_of_ne (h m) (Ne.symm hm))
  linarith

section
variable {N : ℕ} {D : Dyn} {d r : Fin N → V3}

theorem alpha_ok (hd : D.motion.deltaT = List.ofFn d) : ∃ x, D.alpha = .ok x := by
  unfold Dyn.alpha
  simp only [displacement2_ofFn hd, map_ofFn', mean_ofFn]
  apply ratio_ok_of
  intro h
  have h1 : avg (fun m => len2 (d m)) = 0 := by
    have := mul_eq_zero.1 h
    simpa using this
  have := avg_eq_zero (fun m => len2_nonneg _) h1
  exact avg_zero fun m => by simp [this m]

theorem alphaRot_ok (hr : D.motion.deltaR = List.ofFn r) : ∃ x, D.alphaRot = .ok x := by
  unfold Dyn.alphaRot
  simp only [rotation2_ofFn hr, map_ofFn', mean_ofFn]
  apply ratio_ok_of
  intro h
  have h1 : avg (fun m => len2 (r m)) = 0 := by
    have := mul_eq_zero.1 h
    simpa using this
  have := avg_eq_zero (fun m => len2_nonneg _) h1
  exact avg_zero fun m => by simp [this m]

theorem gamma_ok (hd : D.motion.deltaT = List.ofFn d) (hr : D.motion.deltaR = List.ofFn r) :
    ∃ x, D.gamma = .ok x := by
  unfold Dyn.gamma
  simp only [rotation2_ofFn hr, displacement2_ofFn hd, zipWith_ofFn, mean_ofFn]
  apply ratio_ok_of
  intro h
  rcases mul_eq_zero.1 h with h | h
  · have := avg_eq_zero (fun m => len2_nonneg _) h
    exact avg_zero fun m => by simp [this m]
  · have := avg_eq_zero (fun m => len2_nonneg _) h
    exact avg_zero fun m => by simp [this m]

theorem overlap_ok (argsort : List ℝ → List ℕ) (hN : 10 ≤ N)
    (hd : D.motion.deltaT = List.ofFn d) :
    ∃ x, mobileOverlap argsort D.displacement D.rotation = .ok x := by
  unfold mobileOverlap
  simp only [displacement_ofFn hd, List.length_ofFn]
  rw [if_neg]
  · exact ⟨_, rfl⟩
  · have h1 : (1 : ℤ) ≤ ⌊(N : ℚ) * (1 / 10)⌋ := by
      rw [Int.le_floor]
      have : (10 : ℚ) ≤ N := by exact_mod_cast hN
      push_cast
      linarith
    omega

theorem structRelax_ok (hN : 0 < N) (hd : D.motion.deltaT = List.ofFn d)
    (hr : D.motion.deltaR = List.ofFn r) (hn : D.numParticles = N) {mv : List V3}
    (hv : D.molVector = some mv) (hmv : mv ≠ []) {dist : ℝ} (hdist : D.distance = .ok (some dist)) :
    ∃ x, D.structRelax = .ok x := by
  have e : mv = List.ofFn (fun i : Fin mv.length => mv.get i) := (List.ofFn_get mv).symm
  rw [e] at hv
  exact ⟨_, structRelax_ofFn (List.length_pos_iff.2 hmv) hN D d r hd hr _ hv hn dist hdist⟩

/-- `compute_all` succeeds for ten molecules or more. -/
theorem quantities_succeeds (argsort : List ℝ → List ℕ) (t : ℤ) (sc : Bool) (hN : 10 ≤ N)
    (hd : D.motion.deltaT = List.ofFn d) (hr : D.motion.deltaR = List.ofFn r)
    (hn : D.numParticles = N) (hw : D.waveNumber.isSome → D.waveVector.isSome)
    (hk : D.waveNumber ≠ some 0) (hm : D.molVector ≠ some []) :
    ∃ row, D.quantities argsort t sc = .ok row := by
  rw [quantities_eq]
  obtain ⟨al, hal⟩ := alpha_ok hd
  obtain ⟨ar, har⟩ := alphaRot_ok hr
  obtain ⟨ga, hga⟩ := gamma_ok hd hr
  obtain ⟨ov, hov⟩ := overlap_ok argsort hN hd
  have hisf : ∃ x, isfVal D sc = .ok x := by
    unfold isfVal
    split
    · rename_i h
      rw [Bool.and_eq_true] at h
      obtain ⟨ws, hws⟩ := Option.isSome_iff_exists.1 (hw h.2)
      unfold Dyn.isf
      rw [hws]
      exact ⟨_, rfl⟩
    · exact ⟨_, rfl⟩
  obtain ⟨isf, hisf⟩ := hisf
  have hdist : ∃ x, D.distance = .ok x := by
    unfold Dyn.distance
    cases hk' : D.waveNumber with
    | none => exact ⟨_, rfl⟩
    | some k =>
      rw [hk'] at hk
      simp only
      rw [if_neg (fun h => hk (by rw [h]))]
      exact ⟨_, rfl⟩
  obtain ⟨distance, hdist⟩ := hdist
  have hst : ∃ x, structVal D distance = .ok x := by
    unfold structVal
    split
    · rename_i h
      rw [Bool.and_eq_true, Bool.and_eq_true] at h
      obtain ⟨dist, rfl⟩ := Option.isSome_iff_exists.1 h.1.1
      obtain ⟨mv, hmv⟩ := Option.isSome_iff_exists.1 h.1.2
      obtain ⟨x, hx⟩ := structRelax_ok (by omega) hd hr hn hmv
        (fun h => hm (by rw [hmv, h])) hdist
      rw [hx]
      exact ⟨_, rfl⟩
    · exact ⟨_, rfl⟩
  obtain ⟨st, hst⟩ := hst
  rw [hal, hisf, hdist, har, hga, hov]
  simp only [bind, Except.bind, hst, pure, Except.pure]
  exact ⟨_, rfl⟩

end

/-! ## What `add` keeps -/

theorem exists_ofFn {α : Type} {l : List α} {N : ℕ} (h : l.length = N) :
    ∃ f : Fin N → α, l = List.ofFn f := by
  subst h
  exact ⟨_, (List.ofFn_get l).symm⟩

theorem bcast_length {α β γ : Type} {f : α → β → γ} {a : List α} {b : List β} {r : List γ}
    (h : bcast f a b = .ok r) : a.length = b.length ∧ r.length = a.length ∨
      a.length = 1 ∧ r.length = b.length ∨ b.length = 1 ∧ r.length = a.length := by
  unfold bcast at h
  split at h
  · rename_i hl
    obtain rfl := Except.ok.inj h
    left
    exact ⟨hl, by simp [hl]⟩
  · split at h
    · obtain rfl := Except.ok.inj h
      simp
    · obtain rfl := Except.ok.inj h
      simp
    · cases h

theorem inplace_length {α β : Type} {f : α → β → α} {a : List α} {b : List β} {r : List α}
    (h : inplace f a b = .ok r) : r.length = a.length := by
  unfold inplace at h
  split at h
  · split at h
    · rename_i hl
      obtain rfl := Except.ok.inj h
      exact hl
    · cases h
  · cases h

theorem bcast_error {α β γ : Type} {f : α → β → γ} {a : List α} {b : List β} {e : PyErr}
    (h : bcast f a b = .error e) : e = .valueError := by
  unfold bcast at h
  split at h
  · cases h
  · split at h <;> cases h
    rfl

theorem inplace_error {α β : Type} {f : α → β → α} {a : List α} {b : List β} {e : PyErr}
    (h : inplace f a b = .error e) : e = .valueError := by
  unfold inplace at h
  split at h
  · split at h <;> cases h
    rfl
  · rename_i h'
    cases h
    exact bcast_error h'

theorem transAdd_length {m : Tracked} {p r : List V3} (h : transAdd m p = .ok r) :
    r.length = m.deltaT.length := by
  unfold transAdd at h
  split at h
  · exact inplace_length h
  · cases h

theorem rotAdd_length {m : Tracked} {o : Option (List Quat)} {r : List V3}
    (h : rotAdd m o = .ok r) : r.length = m.deltaR.length := by
  unfold rotAdd at h
  split at h
  · split at h
    · exact inplace_length h
    · cases h
  · cases h; rfl

theorem add_lengths {D D' : Dyn} {p : List V3} {o : Option (List Quat)}
    (h : D.add p o = (D', none)) : D'.motion.deltaT.length = D.motion.deltaT.length ∧
      D'.motion.deltaR.length = D.motion.deltaR.length := by
  unfold Dyn.add Tracked.add at h
  split at h
  · simp at h
  · rename_i dT hT
    split at h
    · simp at h
    · rename_i dR hR
      simp only [Prod.mk.injEq, and_true] at h
      subst h
      exact ⟨transAdd_length hT, rotAdd_length hR⟩

theorem add_error {D D' : Dyn} {p : List V3} {o : Option (List Quat)} {e : PyErr}
    (h : D.add p o = (D', some e)) : e ≠ .floatingPointError := by
  have key : e = .valueError := by
    unfold Dyn.add Tracked.add at h
    split at h
    · rename_i e' hT
      simp only [Prod.mk.injEq, Option.some.injEq] at h
      rw [← h.2]
      unfold transAdd at hT
      split at hT
      · exact inplace_error hT
      · rename_i hb; cases hT; exact bcast_error hb
    · split at h
      · rename_i e' hR
        simp only [Prod.mk.injEq, Option.some.injEq] at h
        rw [← h.2]
        unfold rotAdd at hR
        split at hR
        · split at hR
          · exact inplace_error hR
          · rename_i hs
            cases hR
            unfold rotStep toEulerAll at hs
            split at hs
            · split at hs <;> cases hs
              rfl
            · rename_i hb; cases hs; exact bcast_error hb
        · cases hR
      · simp at h
  rw [key]
  decide

theorem mapM_error {α β : Type} {f : α → Except PyErr β} {l : List α} {e : PyErr}
    (h : l.mapM f = .error e) : ∃ x ∈ l, f x = .error e := by
  induction l with
  | nil => cases h
  | cons a l ih =>
    rw [List.mapM_cons] at h
    cases hf : f a with
    | error e' =>
      rw [hf] at h
      cases h
      exact ⟨a, by simp, hf⟩
    | ok b =>
      rw [hf] at h
      cases hl : l.mapM f with
      | error e' =>
        rw [hl] at h
        cases h
        obtain ⟨x, hx, hfx⟩ := ih hl
        exact ⟨x, by simp [hx], hfx⟩
      | ok bs =>
        rw [hl] at h
        cases h

theorem rotateAll_error {o : List Quat} {v : List V3} {e : PyErr} (h : rotateAll o v = .error e) :
    e = .valueError := by
  unfold rotateAll at h
  split at h
  · cases h; rfl
  · split at h
    · cases h
    · rename_i hm
      cases h
      obtain ⟨x, -, hx⟩ := mapM_error hm
      unfold rotateVectors at hx
      split at hx <;> cases hx
      rfl

theorem molecule2particles_error {p : List V3} {o : List Quat} {v : List V3} {e : PyErr}
    (h : molecule2particles p o v = .error e) : e = .valueError := by
  unfold molecule2particles at h
  simp only at h
  split at h
  · rename_i hr; cases h; exact rotateAll_error hr
  · exact bcast_error h

theorem structRelax_error {D : Dyn} {e : PyErr} (h : D.structRelax = .error e) :
    e ≠ .floatingPointError := by
  unfold Dyn.structRelax at h
  split at h
  · rename_i hd
    cases h
    unfold Dyn.distance at hd
    split at hd
    · cases hd
    · split at hd <;> cases hd
      decide
  · cases h; decide
  · split at h
    · cases h; decide
    · simp only at h
      split at h
      · rename_i hm; cases h; rw [molecule2particles_error hm]; decide
      · split at h
        · rename_i hm; cases h; rw [molecule2particles_error hm]; decide
        · split at h
          · rename_i hb; cases h; rw [bcast_error hb]; decide
          · cases h

/-- After the three ratios, nothing raises a FloatingPointError. -/
theorem quantities_error {argsort : List ℝ → List ℕ} {D : Dyn} {t : ℤ} {sc : Bool}
    {al ar ga : Option ℝ}
    (h : (do
      let al ← (.ok al : Except PyErr (Option ℝ))
      let isf ← isfVal D sc
      let distance ← D.distance
      let ar ← (.ok ar : Except PyErr (Option ℝ))
      let ga ← (.ok ga : Except PyErr (Option ℝ))
      let ov ← mobileOverlap argsort D.displacement D.rotation
      let st ← structVal D distance
      pure (rowOf (D.timeDelta t) (mean D.displacement) D.msd D.mfd al isf (comVal D distance)
        D.meanRotation D.msr D.rot1 D.rot2 ar ga ov st)) =
      (.error .floatingPointError : Except PyErr (Dict Quantity Val))) : False := by
  cases hi : isfVal D sc with
  | error e =>
    rw [hi] at h
    cases h
    unfold isfVal at hi
    split at hi
    · unfold Dyn.isf at hi
      split at hi <;> cases hi
    · cases hi
  | ok isf =>
    rw [hi] at h
    cases hd : D.distance with
    | error e =>
      rw [hd] at h
      cases h
      unfold Dyn.distance at hd
      split at hd
      · cases hd
      · split at hd <;> cases hd
    | ok distance =>
      rw [hd] at h
      cases ho : mobileOverlap argsort D.displacement D.rotation with
      | error e =>
        rw [ho] at h
        cases h
        unfold mobileOverlap at ho
        simp only at ho
        split at ho <;> cases ho
      | ok ov =>
        rw [ho] at h
        cases hs : structVal D distance with
        | error e =>
          simp [bind, Except.bind, hs] at h
          subst h
          unfold structVal at hs
          split at hs
          · cases hr : D.structRelax with
            | error e' =>
              rw [hr] at hs
              cases hs
              exact structRelax_error hr rfl
            | ok x => rw [hr] at hs; cases hs
          · cases hs
        | ok st =>
          simp [bind, Except.bind, hs, pure, Except.pure] at h

theorem add_wave {D D' : Dyn} {p : List V3} {o : Option (List Quat)} {e : Option PyErr}
    (h : D.add p o = (D', e)) :
    D'.waveNumber = D.waveNumber ∧ D'.waveVector = D.waveVector := by
  unfold Dyn.add at h
  simp only [Prod.mk.injEq] at h
  rw [← h.1]
  exact ⟨rfl, rfl⟩

theorem add_mol_ori {D D' : Dyn} {p : List V3} {o : Option (List Quat)}
    (h : D.add p o = (D', none)) : D'.molVector = D.molVector ∧ D'.motion.prevOri = o := by
  unfold Dyn.add Tracked.add at h
  split at h
  · simp at h
  · split at h
    · simp at h
    · simp only [Prod.mk.injEq, and_true] at h
      subst h
      exact ⟨rfl, rfl⟩

theorem addFrames_wave {D D' : Dyn} {fs : List Frame} (h : addFrames D fs = .ok D') :
    D'.waveNumber = D.waveNumber ∧ D'.waveVector = D.waveVector := by
  induction fs generalizing D with
  | nil => cases h; exact ⟨rfl, rfl⟩
  | cons f fs ih =>
    unfold addFrames at h
    split at h
    · cases h
    · rename_i d' hd
      have h1 := ih h
      have h2 := add_wave hd
      exact ⟨h1.1.trans h2.1, h1.2.trans h2.2⟩

theorem new_wave {t0 : ℤ} {box : List ℝ} {p : List V3} {o : Option (List Quat)} {mol : Option Mol}
    {k : Option ℝ} {res : ℕ} {D : Dyn} (h : Dyn.new t0 box p o mol k res = .ok D) :
    D.waveNumber = k ∧ D.waveVector = k.map (fun k => createWaveVector k res) := by
  unfold Dyn.new at h
  split at h
  · cases h
  · simp only at h
    split at h
    · cases h
    · split at h
      · cases h
      · cases h; exact ⟨rfl, rfl⟩

theorem range_map_ofFn {α : Type} (n : ℕ) (f : ℕ → α) :
    (List.range n).map f = List.ofFn (fun i : Fin n => f i) := by
  apply List.ext_getElem
  · simp
  · intro i h1 h2; simp

theorem avg_prod {J N : ℕ} (f : Fin J → Fin N → ℝ) :
    avg (fun n : Fin (J * N) => f n.divNat n.modNat) = avg (fun j => avg (f j)) := by
  unfold avg
  have : ∑ n : Fin (J * N), f n.divNat n.modNat = ∑ j, ∑ m, f j m := by
    rw [← Fintype.sum_prod_type' (f := f), ← Equiv.sum_comp finProdFinEquiv.symm]
    rfl
  rw [this, ← Finset.sum_div, div_div, Nat.cast_mul, mul_comm (J : ℝ)]

theorem isf_eq {D : Dyn} {k : ℝ} {res : ℕ} (hv : D.waveVector = some (createWaveVector k res))
    {N : ℕ} {d : Fin N → V3} (hd : D.motion.deltaT = List.ofFn d) :
    D.isf = .ok (avg (fun j : Fin res => avg (fun m => Real.cos (k *
        (Real.cos (2 * Real.pi * j / res) * (d m).1 +
          Real.sin (2 * Real.pi * j / res) * (d m).2.1))))) := by
  unfold Dyn.isf
  rw [hv]
  unfold createWaveVector
  simp only
  rw [range_map_ofFn, List.flatMap_def, map_ofFn', hd]
  simp only [map_ofFn']
  rw [flatten_ofFn (fun (j : Fin res) (m : Fin N) => Real.cos
      (Real.cos ((j : ℕ) * (2 * Real.pi / res)) * k * (d m).1 +
        Real.sin ((j : ℕ) * (2 * Real.pi / res)) * k * (d m).2.1)), mean_ofFn,
    avg_prod (fun (j : Fin res) (m : Fin N) => Real.cos
      (Real.cos ((j : ℕ) * (2 * Real.pi / res)) * k * (d m).1 +
        Real.sin ((j : ℕ) * (2 * Real.pi / res)) * k * (d m).2.1))]
  congr 2
  funext j
  congr 1
  funext m
  have : ((j : ℕ) : ℝ) * (2 * Real.pi / res) = 2 * Real.pi * j / res := by ring
  rw [this]
  congr 1
  ring

end Verif.Dynamics
