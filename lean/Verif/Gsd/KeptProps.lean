import Verif.Gsd.Props
/-!
# Exactly when keyframes are as many as asked for, pairs can be kept and the interval is heeded: C14, C73, C74
-/

namespace Verif.Gsd

variable {α : Type}

/-- The frames looked at: those up to the limit, and the first beyond. -/
def lookedAt (stepsMax : Option Int) (frames : List (GFrame α)) : List (GFrame α) :=
  frames.take ((frames.takeWhile (fun f => decide (∀ m, stepsMax = some m → f.timestep ≤ m))).length + 1)

/-- The frame begins a keyframe when `n` have begun before. -/
def Begins (interval kmax : Int) (n : Nat) (f : GFrame α) : Prop :=
  interval ∣ f.timestep ∧ (n : Int) ≤ kmax

theorem updateIndex_begins (interval kmax : Int) (f : GFrame α) (il : List Nat) :
    (Begins interval kmax il.length f → updateIndex interval kmax f.timestep il = il ++ [il.length]) ∧
    (¬ Begins interval kmax il.length f → updateIndex interval kmax f.timestep il = il) := by
  unfold Begins updateIndex
  rw [Int.dvd_iff_emod_eq_zero]
  exact ⟨fun h => if_pos h, fun h => if_neg h⟩

theorem within_iff (stepsMax : Option Int) (f : GFrame α) :
    (∀ m, stepsMax = some m → f.timestep ≤ m) ↔ stepsMax.any (fun m => decide (f.timestep > m)) = false := by
  cases stepsMax <;> simp

theorem looked_within (stepsMax : Option Int) (f : GFrame α) (fs : List (GFrame α))
    (h : stepsMax.any (fun m => decide (f.timestep > m)) = false) :
    lookedAt stepsMax (f :: fs) = f :: lookedAt stepsMax fs := by
  unfold lookedAt
  rw [List.takeWhile_cons_of_pos (by rw [decide_eq_true_iff, within_iff]; exact h)]
  rfl

theorem looked_beyond (stepsMax : Option Int) (f : GFrame α) (fs : List (GFrame α))
    (h : stepsMax.any (fun m => decide (f.timestep > m)) = true) :
    lookedAt stepsMax (f :: fs) = [f] := by
  unfold lookedAt
  rw [List.takeWhile_cons_of_neg (by rw [decide_eq_true_iff, within_iff, h]; simp)]
  rfl

theorem final_same (stepsMax : Option Int) (interval kmax : Int) (hi : interval ≠ 0) :
    ∀ (fs : List (GFrame α)) (il : List Nat),
      linearFinal stepsMax interval kmax fs il = il ↔
        ∀ f ∈ lookedAt stepsMax fs, ¬ Begins interval kmax il.length f
  | [], il => by simp [linearFinal, lookedAt]
  | f :: fs, il => by
    have hpre := (linearFinal_extends stepsMax interval kmax none fs
      (updateIndex interval kmax f.timestep il)).1
    rw [linearFinal, if_neg hi]
    simp only
    by_cases hb : Begins interval kmax il.length f
    · rw [(updateIndex_begins interval kmax f il).1 hb] at hpre ⊢
      constructor
      · intro h
        exfalso
        split at h
        · have := congrArg List.length h
          simp at this
        · rw [h] at hpre
          have := hpre.length_le
          simp at this
      · intro h
        refine absurd hb (h f ?_)
        cases hx : stepsMax.any (fun m => decide (f.timestep > m)) with
        | true => rw [looked_beyond _ _ _ hx]; exact List.mem_cons_self
        | false => rw [looked_within _ _ _ hx]; exact List.mem_cons_self
    · rw [(updateIndex_begins interval kmax f il).2 hb]
      cases hx : stepsMax.any (fun m => decide (f.timestep > m)) with
      | true =>
        rw [looked_beyond _ _ _ hx]
        simpa using hb
      | false =>
        rw [looked_within _ _ _ hx]
        simp only [Bool.false_eq_true, if_false, List.mem_cons, forall_eq_or_imp]
        rw [final_same stepsMax interval kmax hi fs il]
        exact ⟨fun h => ⟨hb, h⟩, fun h => h.2⟩

theorem linear_extends (stepsMax : Option Int) (interval kmax : Int) (fe : Option PyErr) :
    ∀ (fs : List (GFrame α)) (il : List Nat), ∀ p ∈ (linearReader stepsMax interval kmax fe fs il).1,
      il <+: p.1
  | [], il => by simp [linearReader]
  | f :: fs, il => by
    have hup : il <+: updateIndex interval kmax f.timestep il := by
      unfold updateIndex
      split
      · exact List.prefix_append _ _
      · exact List.prefix_refl _
    rw [linearReader]
    split
    · simp
    · simp only
      split
      · simp
      · intro p hp
        rcases List.mem_cons.1 hp with rfl | hp
        · exact hup
        · exact hup.trans (linear_extends stepsMax interval kmax fe fs _ p hp)

/-- **C73, the exact condition.**  The pairs kept from a linear read of a file are those that were
yielded iff no frame after the first, among those looked at, begins a keyframe. -/
theorem C73_exactly (raws : List (Raw α)) (stepsMax : Option Int) (interval kmax : Int) (hi : interval ≠ 0)
    {f : GFrame α} {fs : List (GFrame α)} (hf : (iterTrajectory raws).1 = f :: fs)
    (hlim : ∀ m, stepsMax = some m → f.timestep ≤ m) [Decidable (Begins interval kmax 0 f)] :
    keptPairs raws stepsMax interval kmax = (readGsd raws stepsMax none interval kmax).1 ↔
    ∀ g ∈ lookedAt stepsMax fs, ¬ Begins interval kmax (if Begins interval kmax 0 f then 1 else 0) g := by
  have hx := (within_iff stepsMax f).1 hlim
  have hlen : (updateIndex interval kmax f.timestep []).length =
      if Begins interval kmax 0 f then 1 else 0 := by
    split
    · rename_i hb
      rw [(updateIndex_begins interval kmax f []).1 hb]; rfl
    · rename_i hb
      rw [(updateIndex_begins interval kmax f []).2 hb]; rfl
  rw [← hlen, ← final_same stepsMax interval kmax hi]
  unfold keptPairs
  simp only [readGsd, gsdLinear]
  rw [hf, linearReader, linearFinal, if_neg hi, if_neg hi]
  simp only [hx, Bool.false_eq_true, if_false]
  generalize updateIndex interval kmax f.timestep [] = il
  have h1 := linear_extends stepsMax interval kmax (iterTrajectory raws).2 fs il
  have h2 := (linearFinal_extends stepsMax interval kmax (iterTrajectory raws).2 fs il).2
  generalize hout : linearReader stepsMax interval kmax (iterTrajectory raws).2 fs il = out at *
  rw [List.map_cons, List.cons.injEq]
  constructor
  · intro h
    exact (Prod.mk.inj h.1).1
  · intro h
    rw [h] at h2 ⊢
    refine ⟨rfl, ?_⟩
    conv_rhs => rw [← List.map_id out.1]
    apply List.map_congr_left
    intro p hp
    have : p.1 = il := (h2 p hp).eq_of_length_le (h1 p hp).length_le
    rw [id, ← this]

/-- **C14, the exact condition for the linear reader.**  It keeps to `keyframe_max` iff at most that many of
the frames it yields are at multiples of the interval. -/
theorem C14_exactly (raws : List (Raw α)) (stepsMax : Option Int) (interval kmax : Int)
    (hc : OnlyCorrupt raws) (hi : 1 ≤ interval) (hk : 0 ≤ kmax) :
    (∀ p ∈ (readGsd raws stepsMax none interval kmax).1, ∀ i ∈ p.1, (i : Int) < kmax) ↔
    ((((readGsd raws stepsMax none interval kmax).1.map Prod.snd).filter
      (fun g => decide (interval ∣ g.timestep))).length : Int) ≤ kmax := by
  obtain ⟨h1, h2⟩ := C13_linear_reader raws stepsMax interval kmax hc hi hk
  generalize (readGsd raws stepsMax none interval kmax).1 = out at *
  have htake : ∀ j, j < out.length → (out.map Prod.snd).take (j + 1) = (readable raws).take (j + 1) := by
    intro j hj
    obtain ⟨r, hr⟩ := List.takeWhile_prefix
      (fun f : GFrame α => !stepsMax.any (fun m => decide (m < f.timestep))) (l := readable raws)
    rw [← h1] at hr
    rw [← hr, List.take_append_of_le_length (by rw [List.length_map]; omega)]
  constructor
  · intro h
    rcases List.eq_nil_or_concat out with rfl | ⟨o, p, rfl⟩
    · simpa using hk
    · by_contra hcon
      rw [not_le] at hcon
      rw [List.concat_eq_append] at *
      have hp : (o ++ [p])[o.length]? = some (p.1, p.2) := by simp
      obtain ⟨n, e1, e2⟩ := h2 o.length p.1 p.2 hp
      rw [← htake o.length (by simp), List.take_of_length_le (by simp)] at e2
      have hn : (n : Int) = kmax + 1 := by omega
      have := h p (by simp) kmax.toNat (by rw [e1, List.mem_range]; omega)
      omega
  · intro h p hp i hpi
    obtain ⟨j, hj⟩ := List.mem_iff_getElem?.1 hp
    obtain ⟨n, e1, e2⟩ := h2 j p.1 p.2 hj
    have hjl := (List.getElem?_eq_some_iff.1 hj).1
    rw [← htake j hjl] at e2
    have hle : (((out.map Prod.snd).take (j + 1)).filter (fun g => decide (interval ∣ g.timestep))).length ≤
        ((out.map Prod.snd).filter (fun g => decide (interval ∣ g.timestep))).length :=
      ((List.take_sublist _ _).filter _).length_le
    rw [e1, List.mem_range] at hpi
    omega

/-- Frames at 0, 3 and 5 with an interval of 5: two keyframes, too many for `keyframe_max` 1 only. -/
example : (((readGsd (sample [0, 3, 5]) none none 5 1).1.map Prod.snd).filter
    (fun g => decide ((5 : Int) ∣ g.timestep))).length = 2 := by decide

/-- **C74, the exact condition.**  A lammps trajectory is thinned as asked for iff the interval is 1 or
there is at most one frame. -/
theorem C74_exactly (frames : List (GFrame α)) (fe : Option PyErr) (bar : Progress) (n : Nat) (hn : 1 ≤ n) :
    (openLammps frames fe bar n).1 = (List.range frames.length).filterMap (fun j => frames[j * n]?) ↔
      n = 1 ∨ frames.length ≤ 1 := by
  constructor
  · intro h
    by_contra hcon
    rw [not_or, not_le] at hcon
    have hlen := congrArg List.length h
    simp only [openLammps] at hlen
    have hlt : ((List.range frames.length).filterMap (fun j => frames[j * n]?)).length <
        frames.length := by
      have : ((List.range frames.length).filterMap (fun j => frames[j * n]?)).length <
          (List.range frames.length).length := by
        rw [List.length_filterMap_eq_countP]
        refine lt_of_le_of_ne List.countP_le_length ?_
        intro he
        rw [List.countP_eq_length] at he
        have := he (frames.length - 1) (List.mem_range.2 (by omega))
        rw [List.getElem?_eq_none] at this
        · cases this
        · have h2 : 2 ≤ n := by omega
          calc frames.length ≤ (frames.length - 1) * 2 := by omega
            _ ≤ (frames.length - 1) * n := Nat.mul_le_mul_left _ h2
      rwa [List.length_range] at this
    omega
  · rintro (rfl | h)
    · exact congrArg Prod.fst (C74_lammps_interval_partial frames fe bar)
    · match frames, h with
      | [], _ => rfl
      | [f], _ => simp [openLammps]

/-- A file with frames at steps 0, 1 and 2 and an interval of 5: one keyframe, the pairs can be kept. -/
example : keptPairs (sample [0, 1, 2]) none 5 5 = (readGsd (sample [0, 1, 2]) none none 5 5).1 := by decide

example : (iterTrajectory (sample [0, 1, 2])).1 = ⟨0, ()⟩ :: [⟨1, ()⟩, ⟨2, ()⟩] ∧
    lookedAt none ([⟨1, ()⟩, ⟨2, ()⟩] : List (GFrame Unit)) = [⟨1, ()⟩, ⟨2, ()⟩] ∧
    lookedAt (some 0) ([⟨1, ()⟩, ⟨2, ()⟩] : List (GFrame Unit)) = [⟨1, ()⟩] := by
  refine ⟨by decide, rfl, rfl⟩

end Verif.Gsd
