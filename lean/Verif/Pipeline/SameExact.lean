import Verif.Pipeline.SameProps
/-!
# Property C156: exactly when the two readers give a keyframe the same frames
-/

namespace Verif.Pipeline

open Verif.Gsd Verif.StepSize

variable {α : Type}

/-- How many frames there are at multiples of the interval up to step `x`. -/
def multiplesUpTo (interval : Int) (fs : List (GFrame α)) (x : Int) : ℕ :=
  (fs.filter (fun g => decide (g.timestep ≤ x ∧ interval ∣ g.timestep))).length

/-- The linear reader gives keyframe `k` the frames from the `k`-th at a multiple of the interval on. -/
theorem linear_given {m interval kmax : Int} (hi : 1 ≤ interval) (fe : Option PyErr) (k : ℕ) (hk : (k : Int) ≤ kmax) :
    ∀ (fs : List (GFrame α)) (n : ℕ), Increasing fs →
      given k (linearReader (some m) interval kmax fe fs (List.range n)).1 =
        (fs.takeWhile (fun f => decide (f.timestep ≤ m))).filter
          (fun f => decide (k < n + multiplesUpTo interval fs f.timestep))
  | [], _, _ => rfl
  | f :: fs, n, hinc => by
    unfold Increasing at hinc
    rw [List.pairwise_cons] at hinc
    have hi0 : interval ≠ 0 := by omega
    simp only [linearReader, hi0, if_false, updateIndex_if]
    by_cases h1 : f.timestep ≤ m
    · have e1 : ¬ (some m).any (fun m => decide (f.timestep > m)) = true := by simpa using h1
      rw [if_neg e1, List.takeWhile_cons, if_pos (decide_eq_true h1)]
      have hcons : ∀ (n' : ℕ) (out : List (List ℕ × GFrame α)), given k ((List.range n', f) :: out) =
          (if k < n' then [f] else []) ++ given k out := by
        intro n' out
        unfold given
        by_cases h : k < n' <;> simp [h]
      simp only [hcons, List.filter_cons]
      rw [linear_given hi fe k hk fs _ hinc.2]
      have hlast : multiplesUpTo interval fs f.timestep = 0 := by
        unfold multiplesUpTo
        rw [List.length_eq_zero_iff, List.filter_eq_nil_iff]
        intro g hg
        have := hinc.1 g hg
        simp only [decide_eq_true_eq, not_and]
        intro h
        omega
      have hmem : ∀ g ∈ fs.takeWhile (fun f => decide (f.timestep ≤ m)), f.timestep < g.timestep :=
        fun g hg => hinc.1 g ((List.takeWhile_sublist _).subset hg)
      have hone : ∀ x, f.timestep ≤ x → multiplesUpTo interval (f :: fs) x =
          (if f.timestep % interval = 0 then 1 else 0) + multiplesUpTo interval fs x := by
        intro x hx
        unfold multiplesUpTo
        rw [List.filter_cons]
        simp only [hx, true_and, Int.dvd_iff_emod_eq_zero, decide_eq_true_eq]
        split
        · rw [List.length_cons]
          omega
        · omega
      have hstep : ∀ y : ℕ, k < (if f.timestep % interval = 0 ∧ (n : Int) ≤ kmax then n + 1 else n) + y ↔
          k < n + ((if f.timestep % interval = 0 then 1 else 0) + y) := by
        intro y
        by_cases h0 : f.timestep % interval = 0
        · simp only [h0, true_and, if_true]
          split <;> omega
        · simp only [h0, false_and, if_false]
          omega
      have hhead : k < (if f.timestep % interval = 0 ∧ (n : Int) ≤ kmax then n + 1 else n) ↔
          k < n + multiplesUpTo interval (f :: fs) f.timestep := by
        rw [hone _ le_rfl, hlast]
        exact hstep 0
      have htail : (fs.takeWhile (fun f => decide (f.timestep ≤ m))).filter (fun g =>
            decide (k < (if f.timestep % interval = 0 ∧ (n : Int) ≤ kmax then n + 1 else n) +
              multiplesUpTo interval fs g.timestep)) =
          (fs.takeWhile (fun f => decide (f.timestep ≤ m))).filter (fun g =>
            decide (k < n + multiplesUpTo interval (f :: fs) g.timestep)) := by
        apply List.filter_congr
        intro g hg
        rw [decide_eq_decide, hone _ (le_of_lt (hmem g hg))]
        exact hstep _
      rw [htail]
      simp only [hhead, decide_eq_true_eq]
      by_cases hc : k < n + multiplesUpTo interval (f :: fs) f.timestep <;> simp [hc]
    · have e1 : (some m).any (fun m => decide (f.timestep > m)) = true := by simpa using h1
      rw [if_pos e1, List.takeWhile_cons, if_neg (by simpa using h1)]
      rfl

/-- Different multiples of the interval need room. -/
theorem room {interval : Int} (hi : 1 ≤ interval) (x : Int) : ∀ (l : List (GFrame α)) (q : ℕ), Increasing l → l ≠ [] →
    (∀ f ∈ l, (q : Int) * interval ≤ f.timestep ∧ f.timestep ≤ x ∧ interval ∣ f.timestep) →
    ((q + l.length : ℕ) - 1 : Int) * interval ≤ x
  | [], _, _, h, _ => absurd rfl h
  | [f], q, _, _, h => by
    obtain ⟨h1, h2, -⟩ := h f (by simp)
    have e : ((q + [f].length : ℕ) - 1 : Int) = q := by simp
    rw [e]
    omega
  | f :: g :: l, q, hinc, _, h => by
    unfold Increasing at hinc
    rw [List.pairwise_cons] at hinc
    have := room hi x (g :: l) (q + 1) hinc.2 (by simp) (by
      intro f' hf'
      obtain ⟨-, h2, h3⟩ := h f' (List.mem_cons_of_mem _ hf')
      refine ⟨?_, h2, h3⟩
      obtain ⟨c, hc⟩ := h3
      have h4 := hinc.1 f' hf'
      have h5 := (h f (by simp)).1
      have h6 : (q : Int) * interval < c * interval := by
        rw [mul_comm c, ← hc]
        omega
      have h7 : (q : Int) < c := lt_of_mul_lt_mul_right h6 (by omega)
      rw [hc, mul_comm interval]
      push_cast
      exact mul_le_mul_of_nonneg_right (by omega) (by omega))
    refine le_trans (le_of_eq ?_) this
    push_cast [List.length_cons]
    ring

theorem room_multiples {interval : Int} (hi : 1 ≤ interval) {fs : List (GFrame α)} (hinc : Increasing fs)
    (hnonneg : ∀ f ∈ fs, 0 ≤ f.timestep) {k : ℕ} {x : Int} (h : k < multiplesUpTo interval fs x) :
    (k : Int) * interval ≤ x := by
  unfold multiplesUpTo at h
  have hr := room hi x (fs.filter (fun g => decide (g.timestep ≤ x ∧ interval ∣ g.timestep))) 0
    (hinc.sublist List.filter_sublist) (by
      intro h0
      rw [h0] at h
      simp at h) (by
      intro f hf
      rw [List.mem_filter, decide_eq_true_eq] at hf
      refine ⟨?_, hf.2⟩
      simpa using hnonneg f hf.1)
  refine le_trans (mul_le_mul_of_nonneg_right ?_ (by omega)) hr
  omega

/-- **C156, exactly.**  With at least as many linear steps as there are steps, both readers give keyframe `k` below
`keyframe_max` the same frames iff no frame from step `k * keyframe_interval` to `steps_max` comes before the `k + 1`-th
frame at a multiple of `keyframe_interval`. -/
theorem C156_exactly (raws : List (Raw α)) (m interval kmax linear : Int) (hc : OnlyCorrupt raws)
    (hinc : Increasing (readable raws)) (hnonneg : ∀ f ∈ readable raws, 0 ≤ f.timestep) (hm : 0 ≤ m) (hml : m ≤ linear)
    (hl : 1 ≤ linear) (hi : 1 ≤ interval) (hkmax : 0 ≤ kmax) (k : ℕ) (hk : (k : Int) < max 1 kmax) :
    given k (readGsd raws (some m) none interval kmax).1 =
        given k (readGsd raws (some m) (some linear) interval kmax).1 ↔
      ∀ f ∈ readable raws, (k : Int) * interval ≤ f.timestep → f.timestep ≤ m →
        k < multiplesUpTo interval (readable raws) f.timestep := by
  have e0 : given k (readGsd raws (some m) none interval kmax).1 = (readable raws).filter (fun f =>
      decide (k < multiplesUpTo interval (readable raws) f.timestep ∧ f.timestep ≤ m)) := by
    have e : readGsd raws (some m) none interval kmax =
        linearReader (some m) interval kmax none (readable raws) (List.range 0) := by
      simp only [readGsd, gsdLinear, iterTrajectory_eq raws hc]
      rfl
    rw [e, linear_given hi none k (by omega) (readable raws) 0 hinc, takeWhile_limit hinc, List.filter_filter]
    apply List.filter_congr
    intro f _
    rw [Bool.decide_and, Nat.zero_add]
  have e1 : given k (readGsd raws (some m) (some linear) interval kmax).1 = (readable raws).filter (fun f =>
      decide ((k : Int) * interval ≤ f.timestep ∧ f.timestep ≤ m)) := by
    have hoff : NoneOff raws m linear interval kmax := by
      intro f hf hfm
      exact (C06_series_is_union m linear interval kmax hm hl hi _).2 ⟨0, 0, first_zero hm hl hi,
        wants_linear hml le_rfl (hnonneg f hf) hfm⟩
    rw [given_exponential raws m interval kmax linear hc hinc hm hi hl (Or.inl hoff) k]
    apply List.filter_congr
    intro f hf
    refine decide_eq_decide.2 ?_
    constructor
    · rintro ⟨st, h1, h2, h3⟩
      obtain rfl := first_linear_inv hm hl hml hi h1
      refine ⟨h2, ?_⟩
      rcases h3 with h3 | h3
      · omega
      · exact le_of_lt h3.2.1
    · rintro ⟨h1, h2⟩
      exact ⟨_, first_linear hm hl hml hi hk (by omega), h1, wants_linear hml (by positivity) h1 h2⟩
  rw [e0, e1]
  constructor
  · intro h f hf h1 h2
    have : f ∈ (readable raws).filter (fun f => decide ((k : Int) * interval ≤ f.timestep ∧ f.timestep ≤ m)) :=
      List.mem_filter.2 ⟨hf, decide_eq_true ⟨h1, h2⟩⟩
    rw [← h] at this
    exact (of_decide_eq_true (List.mem_filter.1 this).2).1
  · intro h
    apply List.filter_congr
    intro f hf
    refine decide_eq_decide.2 ⟨fun h1 => ⟨room_multiples hi hinc hnonneg h1.1, h1.2⟩, fun h1 => ⟨h f hf h1.1 h1.2, h1.2⟩⟩

/-- Step 2 is missing: with keyframes every 2 steps the frame at step 3 should be in keyframe 1, but only one frame up to
it is at a multiple of 2.  Without step 3 both readers agree. -/
example : (¬ ∀ f ∈ readable (sample [0, 1, 3, 4, 5]), (1 : Int) * 2 ≤ f.timestep → f.timestep ≤ 5 →
      1 < multiplesUpTo 2 (readable (sample [0, 1, 3, 4, 5])) f.timestep) ∧
    ∀ f ∈ readable (sample [0, 1, 4, 5]), (1 : Int) * 2 ≤ f.timestep → f.timestep ≤ 5 →
      1 < multiplesUpTo 2 (readable (sample [0, 1, 4, 5])) f.timestep := by decide

end Verif.Pipeline
