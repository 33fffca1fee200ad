import Verif.Gsd.LazySpec
import Verif.StepSize.LazyLemmas
/-!
# The reader that asks for its steps and the reader on the list of the steps
-/

namespace Verif.Gsd

open Verif.StepSize (LazySeries Produces)

variable {α : Type}

theorem lazyStep_cons {s : LazySeries} {p : Int × List Nat} {l : List (Int × List Nat)}
    (h : Produces s (p :: l)) :
    ∃ N s', (∀ n ≥ N, lazyStep n s = .ok (p.1, s')) ∧ s'.getIndex = p.2 ∧ Produces s' l := by
  obtain ⟨N, s', hN, hi, hp⟩ := h
  exact ⟨N, s', fun n hn => by simp only [lazyStep, hN n hn], hi, hp⟩

theorem lazyStep_nil {s : LazySeries} (h : Produces s []) :
    ∃ N, ∀ n ≥ N, lazyStep n s = .error .returned := by
  obtain ⟨N, hN⟩ := h
  exact ⟨N, fun n hn => by simp only [lazyStep, hN n hn]⟩

theorem lazyCatch_none (t : Int) : ∀ (ss : List (Int × List Nat)) (s : LazySeries)
    (cur : Int × List Nat), Produces s ss → catchSteps t cur ss = none →
    ∃ N, ∀ n ≥ N, ∀ k ≥ N, lazyCatch n t k cur.1 s = .error .returned
  | [], s, cur, h, hc => by
    simp only [catchSteps] at hc
    split at hc
    · rename_i ht
      obtain ⟨N, hN⟩ := lazyStep_nil h
      refine ⟨N + 1, fun n hn k hk => ?_⟩
      obtain ⟨k, rfl⟩ : ∃ m, k = m + 1 := ⟨k - 1, by omega⟩
      simp only [lazyCatch, if_pos ht, hN n (by omega)]
    · exact absurd hc (by simp)
  | p :: ss, s, cur, h, hc => by
    simp only [catchSteps] at hc
    split at hc
    · rename_i ht
      obtain ⟨N, s', hN, _, hp⟩ := lazyStep_cons h
      obtain ⟨N', hN'⟩ := lazyCatch_none t ss s' p hp hc
      refine ⟨max N N' + 1, fun n hn k hk => ?_⟩
      obtain ⟨k, rfl⟩ : ∃ m, k = m + 1 := ⟨k - 1, by omega⟩
      simp only [lazyCatch, if_pos ht, hN n (by omega)]
      exact hN' n (by omega) k (by omega)
    · exact absurd hc (by simp)

theorem lazyCatch_some (t : Int) (c' : Int × List Nat) (ss' : List (Int × List Nat)) :
    ∀ (ss : List (Int × List Nat)) (s : LazySeries) (cur : Int × List Nat), Produces s ss →
    s.getIndex = cur.2 → catchSteps t cur ss = some (c', ss') →
    ∃ N s', (∀ n ≥ N, ∀ k ≥ N, lazyCatch n t k cur.1 s = .ok (c'.1, s')) ∧ s'.getIndex = c'.2 ∧
      Produces s' ss'
  | [], s, cur, h, hi, hc => by
    simp only [catchSteps] at hc
    split at hc
    · exact absurd hc (by simp)
    · rename_i ht
      simp only [Option.some.injEq, Prod.mk.injEq] at hc
      obtain ⟨rfl, rfl⟩ := hc
      refine ⟨1, s, fun n _ k hk => ?_, hi, h⟩
      obtain ⟨k, rfl⟩ : ∃ m, k = m + 1 := ⟨k - 1, by omega⟩
      simp only [lazyCatch, if_neg ht]
  | p :: ss, s, cur, h, hi, hc => by
    simp only [catchSteps] at hc
    split at hc
    · rename_i ht
      obtain ⟨N, s1, hN, hi1, hp⟩ := lazyStep_cons h
      obtain ⟨N', s', hN', hi', hp'⟩ := lazyCatch_some t c' ss' ss s1 p hp hi1 hc
      refine ⟨max N N' + 1, s', fun n hn k hk => ?_, hi', hp'⟩
      obtain ⟨k, rfl⟩ : ∃ m, k = m + 1 := ⟨k - 1, by omega⟩
      simp only [lazyCatch, if_pos ht, hN n (by omega)]
      exact hN' n (by omega) k (by omega)
    · rename_i ht
      simp only [Option.some.injEq, Prod.mk.injEq] at hc
      obtain ⟨rfl, rfl⟩ := hc
      refine ⟨1, s, fun n _ k hk => ?_, hi, h⟩
      obtain ⟨k, rfl⟩ : ∃ m, k = m + 1 := ⟨k - 1, by omega⟩
      simp only [lazyCatch, if_neg ht]

/-- What the list model says, as the outcome of the lazy reader. -/
def asEnding (r : List (List Nat × GFrame α) × Option PyErr) :
    List (List Nat × GFrame α) × Ending := (r.1, Ending.of r.2)

theorem lazyEmit_eq (m : Int) (cur : Int × List Nat) (f : GFrame α)
    (next : List (List Nat × GFrame α) × Option PyErr) :
    lazyEmit m cur.1 cur.2 f (asEnding next) = asEnding (emit m cur f next) := by
  unfold lazyEmit emit
  split
  · rfl
  · split <;> rfl

theorem lazyReader_eq (m : Int) (fe : Option PyErr) : ∀ (fs : List (GFrame α)),
    (∀ (s : LazySeries) (ss : List (Int × List Nat)), Produces s ss →
      ∃ N, ∀ n ≥ N, lazyReader n m (Ending.of fe) fs s = asEnding (expReader m fe fs ss)) ∧
    (∀ (s : LazySeries) (cur : Int × List Nat) (ss : List (Int × List Nat)), Produces s ss →
      s.getIndex = cur.2 →
      ∃ N, ∀ n ≥ N,
        lazyFrames n m (Ending.of fe) cur.1 s fs = asEnding (catchFrames m fe cur fs ss))
  | [] => by
    constructor
    · intro s ss _
      exact ⟨0, fun n _ => by simp only [lazyReader, expReader, asEnding]⟩
    · intro s cur ss _ _
      exact ⟨0, fun n _ => by simp only [lazyFrames, catchFrames, asEnding]⟩
  | f :: fs => by
    obtain ⟨ih1, ih2⟩ := lazyReader_eq m fe fs
    constructor
    · intro s ss hp
      cases ss with
      | nil =>
        obtain ⟨N, hN⟩ := lazyStep_nil hp
        exact ⟨N, fun n hn => by simp only [lazyReader, hN n hn, expReader, asEnding, Ending.of]⟩
      | cons cur ss =>
        obtain ⟨N, s', hN, hi, hp'⟩ := lazyStep_cons hp
        by_cases h1 : cur.1 > f.timestep
        · obtain ⟨N', hN'⟩ := ih2 s' cur ss hp' hi
          refine ⟨max N N', fun n hn => ?_⟩
          simp only [lazyReader, hN n (by omega), expReader, if_pos h1]
          exact hN' n (by omega)
        · by_cases h2 : cur.1 < f.timestep
          · cases hc : catchSteps f.timestep cur ss with
            | none =>
              obtain ⟨N', hN'⟩ := lazyCatch_none f.timestep ss s' cur hp' hc
              refine ⟨max N N', fun n hn => ?_⟩
              simp only [lazyReader, hN n (by omega), expReader, if_neg h1, if_pos h2, hc,
                hN' n (by omega) n (by omega), asEnding, Ending.of]
            | some r =>
              obtain ⟨c', ss'⟩ := r
              obtain ⟨N', s'', hN', hi', hp''⟩ := lazyCatch_some f.timestep c' ss' ss s' cur hp'
                hi hc
              obtain ⟨N'', hN''⟩ := ih1 s'' ss' hp''
              refine ⟨max N (max N' N''), fun n hn => ?_⟩
              simp only [lazyReader, hN n (by omega), expReader, if_neg h1, if_pos h2, hc,
                hN' n (by omega) n (by omega), hi', hN'' n (by omega), lazyEmit_eq]
          · obtain ⟨N', hN'⟩ := ih1 s' ss hp'
            refine ⟨max N N', fun n hn => ?_⟩
            simp only [lazyReader, hN n (by omega), expReader, if_neg h1, if_neg h2, hi,
              hN' n (by omega), lazyEmit_eq]
    · intro s cur ss hp hi
      by_cases h1 : f.timestep < cur.1
      · obtain ⟨N, hN⟩ := ih2 s cur ss hp hi
        refine ⟨N, fun n hn => ?_⟩
        simp only [lazyFrames, catchFrames, if_pos h1]
        exact hN n hn
      · obtain ⟨N, hN⟩ := ih1 s ss hp
        refine ⟨N, fun n hn => ?_⟩
        simp only [lazyFrames, catchFrames, if_neg h1, hi, hN n hn, lazyEmit_eq]

theorem Ending.of_ne_running (e : Option PyErr) : Ending.of e ≠ .running := by
  cases e <;> simp [Ending.of]

theorem iterTrajectory_readable (raws : List (Raw α)) :
    (iterTrajectory raws).1 ≠ [] ↔ Readable raws := by
  induction raws with
  | nil =>
    simp only [iterTrajectory, ne_eq, not_true_eq_false, false_iff]
    rintro ⟨pre, f, post, h, _⟩
    simp at h
  | cons r raws ih =>
    cases r with
    | ok f =>
      simp only [iterTrajectory, ne_eq, reduceCtorEq, not_false_eq_true, true_iff]
      exact ⟨[], f, raws, rfl, by simp⟩
    | error e =>
      by_cases he : e = .runtimeError
      · subst he
        simp only [iterTrajectory]
        rw [ih]
        constructor
        · rintro ⟨pre, f, post, h, hp⟩
          refine ⟨.error .runtimeError :: pre, f, post, by simp [h], ?_⟩
          simpa using hp
        · rintro ⟨pre, f, post, h, hp⟩
          cases pre with
          | nil => simp at h
          | cons a pre =>
            simp only [List.cons_append, List.cons.injEq] at h
            exact ⟨pre, f, post, h.2, fun r hr => hp r (List.mem_cons_of_mem _ hr)⟩
      · have h0 : (iterTrajectory (.error e :: raws)).1 = [] := by
          cases e <;> simp_all [iterTrajectory]
        rw [h0]
        simp only [ne_eq, not_true_eq_false, false_iff]
        rintro ⟨pre, f, post, h, hp⟩
        cases pre with
        | nil => simp at h
        | cons a pre =>
          simp only [List.cons_append, List.cons.injEq] at h
          have := hp a (by simp)
          rw [← h.1] at this
          simp only [Except.error.injEq] at this
          exact he this

/-- A first `next()` that does not give a step is the end of the matter. -/
theorem lazyReader_stuck (n : Nat) (m : Int) (fe : Ending) (fs : List (GFrame α)) (s : LazySeries)
    (e : Ending) (hfs : fs ≠ []) (h : lazyStep n s = .error e) :
    lazyReader n m fe fs s = ([], e) := by
  cases fs with
  | nil => exact absurd rfl hfs
  | cons f fs => simp only [lazyReader, h]

theorem init_some (m linear interval kmax : Int) (n : Nat) :
    ∃ s, LazySeries.init m linear interval kmax (n + 1) = some s := by
  by_cases hm : 0 < m
  · exact ⟨_, StepSize.init_first m linear interval kmax hm n⟩
  · exact ⟨_, StepSize.init_only m linear interval kmax (by omega) n⟩

end Verif.Gsd
