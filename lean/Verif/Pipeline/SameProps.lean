import Verif.Pipeline.SameLemmas
import Verif.Pipeline.LimitProps
/-!
# C156: the two readers with as many linear steps as there are steps
-/

namespace Verif.Pipeline

open Verif.Motion Verif.Dynamics Verif.Gsd Verif.StepSize Verif.Process Verif.Cache

variable {ν : Type}

/-- The full statement: with at least as many linear steps as there are steps to be read, the exponential reader gives
what the linear one gives. -/
def ReadersSame : Prop :=
  ∀ (raws : List (Raw Unit)) (m interval kmax linear : Int), OnlyCorrupt raws → Increasing (readable raws) →
    (∀ f ∈ readable raws, 0 ≤ f.timestep) → 0 ≤ m → m ≤ linear → 1 ≤ linear → 1 ≤ interval → 0 ≤ kmax → ∀ k,
    given k (readGsd raws (some m) none interval kmax).1 = given k (readGsd raws (some m) (some linear) interval kmax).1

/-- **C156, refuted, the number of keyframes.**  With `keyframe_max` 2 the linear reader gives three keyframes. -/
theorem C156_keyframes_refuted : ¬ ReadersSame := by
  intro h
  have := h (sample [0, 1, 2, 3]) 3 1 2 10 (onlyCorrupt_sample _) (by unfold Increasing; decide) (by decide)
    (by decide) (by decide) (by decide) (by decide) (by decide) 2
  revert this
  decide

/-- **C156, refuted, missing frames.**  The linear reader counts the frames at multiples of the interval, the exponential
one the multiples: when one is missing the keyframes have other numbers.  Here step 2 is missing, and step 4 starts
keyframe 1 in the one and keyframe 2 in the other. -/
theorem C156_missing_refuted :
    ¬ ∀ (raws : List (Raw Unit)) (m interval kmax linear : Int), OnlyCorrupt raws → Increasing (readable raws) →
      (∀ f ∈ readable raws, 0 ≤ f.timestep) → 0 ≤ m → m ≤ linear → 1 ≤ linear → 1 ≤ interval → 0 ≤ kmax →
      ∀ k : ℕ, (k : Int) < max 1 kmax →
      given k (readGsd raws (some m) none interval kmax).1 =
        given k (readGsd raws (some m) (some linear) interval kmax).1 := by
  intro h
  have := h (sample [0, 1, 3, 4, 5]) 5 2 5 10 (onlyCorrupt_sample _) (by unfold Increasing; decide) (by decide)
    (by decide) (by decide) (by decide) (by decide) (by decide) 1 (by decide)
  revert this
  decide

/-- **C156, proved part.**  The full statement is `ReadersSame`.  It holds for the keyframes below `keyframe_max` when
there is a frame at every multiple of the keyframe interval up to the end of the file.  Then keyframe `k` gets the
frames from step `k * interval` to `steps_max` with both.  Missing: the keyframe `keyframe_max` of the linear reader
(`C156_keyframes_refuted`) and files with missing multiples (`C156_missing_refuted`). -/
theorem C156_readers_partial {α : Type} (raws : List (Raw α)) (m interval kmax linear : Int) (hc : OnlyCorrupt raws)
    (hinc : Increasing (readable raws)) (hnonneg : ∀ f ∈ readable raws, 0 ≤ f.timestep) (hm : 0 ≤ m) (hml : m ≤ linear)
    (hl : 1 ≤ linear) (hi : 1 ≤ interval) (hkmax : 0 ≤ kmax)
    (hfull : ∀ j : ℕ, (∃ f ∈ readable raws, (j : Int) * interval ≤ f.timestep) →
      ∃ f ∈ readable raws, f.timestep = j * interval) (k : ℕ) (hk : (k : Int) < max 1 kmax) :
    given k (readGsd raws (some m) none interval kmax).1 =
      (readable raws).filter (fun f => decide ((k : Int) * interval ≤ f.timestep ∧ f.timestep ≤ m)) ∧
    given k (readGsd raws (some m) (some linear) interval kmax).1 =
      (readable raws).filter (fun f => decide ((k : Int) * interval ≤ f.timestep ∧ f.timestep ≤ m)) := by
  constructor
  · have e0 : readGsd raws (some m) none interval kmax =
        linearReader (some m) interval kmax none (readable raws) (List.range 0) := by
      simp only [readGsd, gsdLinear, iterTrajectory_eq raws hc]
      rfl
    rw [e0, linear_full hi none k (by omega) (readable raws) 0 0 (by omega) hinc (by simp) hnonneg
      (fun j _ h => hfull j h), takeWhile_limit hinc, List.filter_filter]
    apply List.filter_congr
    intro f _
    rw [Bool.decide_and]
  · have hoff : NoneOff raws m linear interval kmax := by
      intro f hf hfm
      exact (C06_series_is_union m linear interval kmax hm hl hi _).2 ⟨0, 0, first_zero hm hl hi,
        wants_linear hml le_rfl (hnonneg f hf) hfm⟩
    rw [given_exponential raws m interval kmax linear hc hinc hm hi hl (Or.inl hoff) k]
    apply List.filter_congr
    intro f hf
    refine decide_eq_decide.2 ?_
    constructor
    · rintro ⟨st, h1, h2, h3⟩
      obtain rfl := first_linear_inv hm hl hml hi h1
      refine ⟨h2, ?_⟩
      rcases h3 with h3 | h3
      · omega
      · exact le_of_lt h3.2.1
    · rintro ⟨h1, h2⟩
      exact ⟨_, first_linear hm hl hml hi hk (by omega), h1, wants_linear hml (by positivity) h1 h2⟩

/-- Steps 0, 2, 3, 4, 6 with keyframes every 2 steps: all multiples of 2 are there. -/
example : (∀ j : ℕ, (∃ f ∈ readable (sample [0, 2, 3, 4, 6]), (j : Int) * 2 ≤ f.timestep) →
      ∃ f ∈ readable (sample [0, 2, 3, 4, 6]), f.timestep = j * 2) ∧
    (given 1 (readGsd (sample [0, 2, 3, 4, 6]) (some 5) none 2 4).1).map (·.timestep) = [2, 3, 4] ∧
    (given 1 (readGsd (sample [0, 2, 3, 4, 6]) (some 5) (some 10) 2 4).1).map (·.timestep) = [2, 3, 4] := by
  refine ⟨?_, by decide, by decide⟩
  rintro j ⟨f, hf, hle⟩
  have h6 : f.timestep ≤ 6 := by
    have : ∀ f ∈ readable (sample [0, 2, 3, 4, 6]), f.timestep ≤ 6 := by decide
    exact this f hf
  have hj : j < 4 := by omega
  have : ∀ j < 4, ∃ f ∈ readable (sample [0, 2, 3, 4, 6]), f.timestep = (j : ℕ) * 2 := by decide
  exact this j hj

/-- **C156, tables, proved part.**  Under the same hypotheses the rows of dynamics and the molecular relaxations of the
keyframes below `keyframe_max` are the same with both readers. -/
theorem C156_tables_partial (a : Args) (vars : Except PyErr ν) (raws : List (Raw PData)) (m interval kmax linear : Int)
    (hc : OnlyCorrupt raws) (hinc : Increasing (readable raws)) (hnonneg : ∀ f ∈ readable raws, 0 ≤ f.timestep)
    (hm : 0 ≤ m) (hml : m ≤ linear) (hl : 1 ≤ linear) (hi : 1 ≤ interval) (hkmax : 0 ≤ kmax)
    (hfull : ∀ j : ℕ, (∃ f ∈ readable raws, (j : Int) * interval ≤ f.timestep) →
      ∃ f ∈ readable raws, f.timestep = j * interval) (k : ℕ) (hk : (k : Int) < max 1 kmax)
    {file file' : File (Rec ℕ (Dict Quantity Val) (Dict String ℤ) ν)}
    {o o' : Option (List (Rec ℕ (Dict Quantity Val) (Dict String ℤ) ν))}
    (h1 : processGsd a vars raws (some m) none interval kmax true [] = (file, .ok o))
    (h2 : processGsd a vars raws (some m) (some linear) interval kmax true [] = (file', .ok o')) :
    (rows file "dynamics").filterMap (dynOf k) = (rows file' "dynamics").filterMap (dynOf k) ∧
    (rows file "molecular_relaxations").filterMap (molOf k) =
      (rows file' "molecular_relaxations").filterMap (molOf k) := by
  obtain ⟨e1, e2⟩ := C156_readers_partial raws m interval kmax linear hc hinc hnonneg hm hml hl hi hkmax hfull k hk
  have n1 : ∀ p ∈ (readGsd raws (some m) none interval kmax).1, p.1.Nodup := linear_ranges (some m) interval kmax _ _ 0
  have n2 := (C11_exponential_sound raws (some m) interval kmax linear m rfl hm hi hl).2.2
  unfold processGsd at h1 h2
  generalize readGsd raws (some m) none interval kmax = p1 at *
  generalize readGsd raws (some m) (some linear) interval kmax = p2 at *
  obtain ⟨d1, r1⟩ := C25_keyframes_isolated (env a vars) p1.1 p1.2 _ _ _ h1 (Or.inl rfl) k
  obtain ⟨d2, r2⟩ := C25_keyframes_isolated (env a vars) p2.1 p2.2 _ _ _ h2 (Or.inl rfl) k
  rw [d1, d2, r1, r2, framesOf_given _ k _ n1, framesOf_given _ k _ (fun p hp => (n2 p hp).2.2.1), e1, e2]
  exact ⟨rfl, rfl⟩

end Verif.Pipeline
