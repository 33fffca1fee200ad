import Verif.Motion.AliasSpec
import Verif.Motion.Lemmas
/-!
# Lemmas about arrays as objects
-/

namespace Verif.Motion

/-- The memory of the program and that of the object agree on all arrays but the two of the
object. -/
def Agree (aT aR : ℕ) (h g : Memory) : Prop :=
  (∀ a, a ≠ aT → a ≠ aR → h.vec a = g.vec a) ∧ h.quat = g.quat

theorem Held.add_value (m : Held) (h : Memory) (p : ℕ) (o : Option ℕ) (hTR : m.deltaT ≠ m.deltaR)
    (hp : m.prevPos ≠ m.deltaT ∧ m.prevPos ≠ m.deltaR) (hp' : p ≠ m.deltaT ∧ p ≠ m.deltaR) :
    (m.add h p o).2.1.value (m.add h p o).1 = ((m.value h).add (h.vec p) (o.map h.quat)).1 ∧
    (m.add h p o).2.2 = ((m.value h).add (h.vec p) (o.map h.quat)).2 ∧
    (m.add h p o).2.1.deltaT = m.deltaT ∧ (m.add h p o).2.1.deltaR = m.deltaR ∧
    Agree m.deltaT m.deltaR (m.add h p o).1 h ∧
    ((m.add h p o).2.2 = none → (m.add h p o).2.1.prevPos = p ∧ (m.add h p o).2.1.prevOri = o) := by
  unfold Held.add Tracked.add
  cases hT : transAdd (m.value h) (h.vec p) with
  | error e =>
    refine ⟨rfl, rfl, rfl, rfl, ⟨fun _ _ _ => rfl, rfl⟩, by simp⟩
  | ok dT =>
    have hv : rotAdd (m.value (h.setVec m.deltaT dT)) (o.map (h.setVec m.deltaT dT).quat) =
        rotAdd (m.value h) (o.map h.quat) := by
      unfold rotAdd Held.value Memory.setVec
      simp only [if_neg hTR.symm]
    simp only [hv]
    cases hR : rotAdd (m.value h) (o.map h.quat) with
    | error e =>
      refine ⟨?_, rfl, rfl, rfl, ⟨fun a h1 _ => ?_, rfl⟩, by simp⟩
      · simp only [Held.value, Memory.setVec, if_neg hTR.symm, if_neg hp.1, if_true]
      · simp only [Memory.setVec, if_neg h1]
    | ok dR =>
      refine ⟨?_, rfl, rfl, rfl, ⟨fun a h1 h2 => ?_, rfl⟩, fun _ => ⟨rfl, rfl⟩⟩
      · simp only [Held.value, Memory.setVec, if_neg hTR, if_neg hp'.1, if_neg hp'.2, if_true]
      · simp only [Memory.setVec, if_neg h1, if_neg h2]

theorem framesAdded_congr (aT aR : ℕ) : ∀ (cs : List Cmd) (h g : Memory) (p : ℕ) (o : Option ℕ),
    Agree aT aR h g → LeavesAlone aT aR p o cs → framesAdded h cs = framesAdded g cs
  | [], _, _, _, _, _, _ => rfl
  | .write a v :: cs, h, g, p, o, hA, hL => by
    simp only [framesAdded]
    refine framesAdded_congr aT aR cs _ _ p o ⟨fun b h1 h2 => ?_, hA.2⟩ hL.2.2.2
    simp only [Memory.setVec]
    split
    · rfl
    · exact hA.1 b h1 h2
  | .writeQ a v :: cs, h, g, p, o, hA, hL => by
    simp only [framesAdded]
    refine framesAdded_congr aT aR cs _ _ p o ⟨hA.1, ?_⟩ hL.2
    simp only [Memory.setQuat, hA.2]
  | .add p' o' :: cs, h, g, p, o, hA, hL => by
    simp only [framesAdded]
    rw [framesAdded_congr aT aR cs h g p' o' hA hL.2.2, hA.1 p' hL.1 hL.2.1, hA.2]

theorem runHeld_value (cs : List Cmd) : ∀ (h : Memory) (m : Held), m.deltaT ≠ m.deltaR →
    m.prevPos ≠ m.deltaT → m.prevPos ≠ m.deltaR →
    LeavesAlone m.deltaT m.deltaR m.prevPos m.prevOri cs →
    match runHeld h m cs with
    | (h', m', none) => addAll (m.value h) (framesAdded h cs) = .ok (m'.value h')
    | (_, _, some e) => addAll (m.value h) (framesAdded h cs) = .error e := by
  induction cs with
  | nil => intro h m _ _ _ _; rfl
  | cons c cs ih =>
    intro h m hTR h1 h2 hL
    cases c with
    | write a v =>
      simp only [runHeld, framesAdded]
      obtain ⟨l1, l2, l3, l4⟩ := hL
      have := ih (h.setVec a v) m hTR h1 h2 l4
      have hv : m.value (h.setVec a v) = m.value h := by
        simp only [Held.value, Memory.setVec, if_neg l1.symm, if_neg l2.symm, if_neg l3.symm]
      rw [hv] at this
      exact this
    | writeQ a v =>
      simp only [runHeld, framesAdded]
      obtain ⟨l1, l2⟩ := hL
      have := ih (h.setQuat a v) m hTR h1 h2 l2
      have hv : m.value (h.setQuat a v) = m.value h := by
        unfold Held.value Memory.setQuat
        cases hm : m.prevOri with
        | none => rfl
        | some b =>
          have hb : ¬ b = a := by
            rintro rfl
            exact l1 hm
          simp only [Option.map_some, if_neg hb]
      rw [hv] at this
      exact this
    | add p o =>
      simp only [runHeld, framesAdded, addAll]
      obtain ⟨l1, l2, l3⟩ := hL
      obtain ⟨a1, a2, a3, a4, a5, a6⟩ := Held.add_value m h p o hTR ⟨h1, h2⟩ ⟨l1, l2⟩
      generalize hr : m.add h p o = r at *
      obtain ⟨h', m', e⟩ := r
      generalize hs : (m.value h).add (h.vec p) (o.map h.quat) = s at *
      obtain ⟨t, e'⟩ := s
      simp only at a1 a2 a3 a4 a5 a6
      subst a2
      cases e with
      | some e => rfl
      | none =>
        obtain ⟨b1, b2⟩ := a6 rfl
        subst a1
        simp only
        have := ih h' m' (by rw [a3, a4]; exact hTR) (by rw [a3, b1]; exact l1)
          (by rw [a4, b1]; exact l2) (by rw [a3, a4, b1, b2]; exact l3)
        rw [framesAdded_congr m.deltaT m.deltaR cs h' h p o a5 l3] at this
        exact this

theorem wrap_zero (b : Box) : b.wrap 0 = 0 := by
  have h0 : wrap1 0 = 0 := by
    have := wrap1_of_mem (t := 0) (k := 0) (by norm_num) (by norm_num)
    simpa using this
  have hf : b.frac 0 = 0 := by
    unfold Box.frac
    ext <;> simp
  unfold Box.wrap
  rw [hf]
  simp only [Prod.fst_zero, Prod.snd_zero, h0]
  unfold Box.coord
  ext <;> simp

theorem transAdd_same (b : Box) (dT dR p : List V3) (o : Option (List Quat))
    (hl : dT.length = p.length) : transAdd ⟨b, dT, dR, p, o⟩ p = .ok dT := by
  unfold transAdd
  simp only [bcast, if_true]
  have hz : (List.zipWith (fun p q : V3 => p - q) p p).map b.wrap = p.map (fun _ => (0 : V3)) := by
    rw [List.map_zipWith]
    clear hl
    induction p with
    | nil => rfl
    | cons x p ih => simp only [List.zipWith_cons_cons, sub_self, wrap_zero, List.map_cons, ih]
  rw [hz]
  unfold inplace bcast
  have hl' : dT.length = (p.map (fun _ => (0 : V3))).length := by simpa using hl
  rw [if_pos hl']
  have : List.zipWith (fun t w : V3 => t - w) dT (p.map (fun _ => (0 : V3))) = dT := by
    clear hz hl'
    induction dT generalizing p with
    | nil => simp
    | cons x dT ih =>
      cases p with
      | nil => simp at hl
      | cons y p =>
        simp only [List.map_cons, List.zipWith_cons_cons, sub_zero]
        rw [ih p (by simpa using hl)]
  simp only [this, if_true]

theorem runHeld_buffer (a : ℕ) (vs : List (List V3)) : ∀ (h : Memory) (m : Held),
    m.deltaT ≠ m.deltaR → a ≠ m.deltaT → a ≠ m.deltaR → m.prevPos = a → m.prevOri = none →
    (∀ v ∈ vs, v.length = (h.vec m.deltaT).length) →
    (runHeld h m (oneBuffer a vs)).2.2 = none ∧
    (runHeld h m (oneBuffer a vs)).2.1.deltaT = m.deltaT ∧
    (runHeld h m (oneBuffer a vs)).1.vec m.deltaT = h.vec m.deltaT := by
  induction vs with
  | nil => intro h m _ _ _ _ _ _; exact ⟨rfl, rfl, rfl⟩
  | cons v vs ih =>
    intro h m hTR h1 h2 hp ho hlen
    simp only [oneBuffer, runHeld]
    have hadd : m.add (h.setVec a v) a none =
        ((((h.setVec a v).setVec m.deltaT (h.vec m.deltaT)).setVec m.deltaR
          (h.vec m.deltaR)), { m with prevPos := a, prevOri := none }, none) := by
      unfold Held.add
      have hv : m.value (h.setVec a v) = ⟨m.box, h.vec m.deltaT, h.vec m.deltaR, v, none⟩ := by
        simp only [Held.value, Memory.setVec, if_neg h1.symm, if_neg h2.symm, hp, if_true, ho,
          Option.map_none]
      have hpv : (h.setVec a v).vec a = v := by simp [Memory.setVec]
      rw [hv, hpv, transAdd_same _ _ _ _ _ (hlen v (by simp)).symm]
      simp only [rotAdd, Held.value, ho, Option.map_none]
      simp only [Memory.setVec, if_neg hTR.symm, if_neg h2.symm]
    rw [hadd]
    simp only
    obtain ⟨i1, i2, i3⟩ := ih (((h.setVec a v).setVec m.deltaT (h.vec m.deltaT)).setVec m.deltaR
          (h.vec m.deltaR)) { m with prevPos := a, prevOri := none } hTR h1 h2 rfl rfl (by
        intro w hw
        have := hlen w (by simp [hw])
        simpa [Memory.setVec, hTR] using this)
    refine ⟨i1, i2, ?_⟩
    rw [i3]
    simp only [Memory.setVec, if_neg hTR, if_true]

end Verif.Motion
