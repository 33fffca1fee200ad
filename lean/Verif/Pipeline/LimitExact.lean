import Verif.Pipeline.LimitProps
import Verif.Gsd.TimelineProps
/-!
# C155: exactly when a larger `keyframe_max` leaves a keyframe its frames
-/

namespace Verif.Pipeline

open Verif.Motion Verif.Dynamics Verif.Gsd Verif.StepSize Verif.Process Verif.Cache

variable {α : Type}

/-- The times at which the exponential reader hands out a frame (C178). -/
def handedOut (raws : List (Raw α)) (m linear interval kmax : Int) : List Int :=
  taken .level (timeline ((readable raws).map GFrame.timestep) ((seriesList m linear interval kmax).map Prod.fst))

/-- The time is on the series of keyframe `k`. -/
def OnSeriesOf (m linear interval kmax : Int) (k : ℕ) (t : Int) : Prop :=
  ∃ st, firstStep (seriesList m linear interval kmax) k = some st ∧ st ≤ t ∧ Wants m linear st t

theorem given_mem (raws : List (Raw α)) (m interval kmax linear : Int) (hc : OnlyCorrupt raws)
    (hinc : Increasing (readable raws)) (hm : 0 ≤ m) (hi : 1 ≤ interval) (hl : 1 ≤ linear) (k : ℕ) (f : GFrame α) :
    f ∈ given k (readGsd raws (some m) (some linear) interval kmax).1 ↔
      f ∈ readable raws ∧ f.timestep ∈ handedOut raws m linear interval kmax ∧
        OnSeriesOf m linear interval kmax k f.timestep := by
  obtain ⟨hsub, -, hk⟩ := C11_exponential_sound raws (some m) interval kmax linear m rfl hm hi hl
  have ht := C178_taken raws (some m) interval kmax linear m rfl hc hinc hm hi hl
  unfold handedOut
  rw [← ht]
  generalize readGsd raws (some m) (some linear) interval kmax = r at *
  unfold given OnSeriesOf
  simp only [List.mem_map, List.mem_filter, decide_eq_true_eq]
  have hinj : ∀ a ∈ readable raws, ∀ b ∈ readable raws, a.timestep = b.timestep → a = b := by
    intro a ha b hb hab
    obtain ⟨i, hi', rfl⟩ := List.mem_iff_getElem.1 ha
    obtain ⟨j, hj', rfl⟩ := List.mem_iff_getElem.1 hb
    rcases lt_trichotomy i j with hlt | heq | hgt
    · exact absurd hab (List.pairwise_iff_getElem.1 hinc _ _ hi' hj' hlt).ne
    · subst heq
      rfl
    · exact absurd hab.symm (List.pairwise_iff_getElem.1 hinc _ _ hj' hi' hgt).ne
  constructor
  · rintro ⟨p, ⟨hp, hkp⟩, rfl⟩
    exact ⟨hsub.subset (List.mem_map_of_mem hp), ⟨p, hp, rfl⟩, ((hk p hp).2.2.2 k).1 hkp⟩
  · rintro ⟨hf, ⟨p, hp, hpt⟩, hs⟩
    have : p.2 = f := hinj _ (hsub.subset (List.mem_map_of_mem hp)) _ hf hpt
    subst this
    exact ⟨p, ⟨hp, ((hk p hp).2.2.2 k).2 hs⟩, rfl⟩

/-- **C155, exponential steps, exactly.**  A keyframe below the smaller `keyframe_max` gets the same frames for the larger
one if and only if, on the series of that keyframe, the reader hands out frames at the same times for both. -/
theorem C155_exactly (raws : List (Raw α)) (m interval M M' linear : Int) (hc : OnlyCorrupt raws)
    (hinc : Increasing (readable raws)) (hm : 0 ≤ m) (hi : 1 ≤ interval) (hl : 1 ≤ linear) (hM : M ≤ M') (k : ℕ)
    (hk : (k : Int) < max 1 M) :
    given k (readGsd raws (some m) (some linear) interval M).1 =
        given k (readGsd raws (some m) (some linear) interval M').1 ↔
      ∀ f ∈ readable raws, OnSeriesOf m linear interval M k f.timestep →
        (f.timestep ∈ handedOut raws m linear interval M ↔ f.timestep ∈ handedOut raws m linear interval M') := by
  have hon : ∀ t, OnSeriesOf m linear interval M' k t ↔ OnSeriesOf m linear interval M k t := by
    intro t
    unfold OnSeriesOf
    rw [first_kmax hm hl hi hM hk]
  have g := given_mem raws m interval M linear hc hinc hm hi hl k
  have g' := given_mem raws m interval M' linear hc hinc hm hi hl k
  simp only [hon] at g'
  have inc : ∀ K, Increasing (given k (readGsd raws (some m) (some linear) interval K).1) := fun K =>
    hinc.sublist ((List.filter_sublist.map Prod.snd).trans
      (C11_exponential_sound raws (some m) interval K linear m rfl hm hi hl).1)
  constructor
  · intro h f hf hs
    constructor
    · intro ht
      have := (g f).2 ⟨hf, ht, hs⟩
      rw [h] at this
      exact ((g' f).1 this).2.1
    · intro ht
      have := (g' f).2 ⟨hf, ht, hs⟩
      rw [← h] at this
      exact ((g f).1 this).2.1
  · intro h
    apply List.Perm.eq_of_pairwise (le := fun a b : GFrame α => a.timestep < b.timestep)
      (fun a b _ _ h1 h2 => by omega) (inc M) (inc M')
    classical
    rw [List.perm_ext_iff_of_nodup ((inc M).imp (fun h => by rintro rfl; omega))
      ((inc M').imp (fun h => by rintro rfl; omega))]
    intro f
    rw [g, g']
    constructor
    · rintro ⟨hf, ht, hs⟩
      exact ⟨hf, (h f hf hs).1 ht, hs⟩
    · rintro ⟨hf, ht, hs⟩
      exact ⟨hf, (h f hf hs).2 ht, hs⟩

/-- Frames 0, 5, 15, 20 with 10 linear steps and keyframes every 5 steps: 20 is handed out for `keyframe_max` 2 and not for
1, as 15 is off the series for 1 and the step 10 is missing.  The other frames make no difference. -/
example : (∀ f ∈ readable (sample [0, 5, 20]), OnSeriesOf 40 10 5 1 0 f.timestep →
      (f.timestep ∈ handedOut (sample [0, 5, 20]) 40 10 5 1 ↔ f.timestep ∈ handedOut (sample [0, 5, 20]) 40 10 5 2)) ∧
    ¬ ∀ f ∈ readable (sample [0, 5, 15, 20]), OnSeriesOf 40 10 5 1 0 f.timestep →
      (f.timestep ∈ handedOut (sample [0, 5, 15, 20]) 40 10 5 1 ↔
        f.timestep ∈ handedOut (sample [0, 5, 15, 20]) 40 10 5 2) := by
  constructor
  · refine (C155_exactly _ 40 5 1 2 10 (onlyCorrupt_sample _) (by unfold Increasing; decide) (by decide) (by decide)
      (by decide) (by decide) 0 (by decide)).1 (by decide)
  · intro h
    have := (C155_exactly _ 40 5 1 2 10 (onlyCorrupt_sample _) (by unfold Increasing; decide) (by decide) (by decide)
      (by decide) (by decide) 0 (by decide)).2 h
    revert this
    decide

end Verif.Pipeline
