import Verif.Pipeline.LimitLemmas
import Verif.Pipeline.LaterProps
/-!
# Lemmas: the two readers side by side
-/

namespace Verif.Pipeline

open Verif.Gsd Verif.StepSize

variable {α : Type}

theorem takeWhile_limit {m : Int} : ∀ {l : List (GFrame α)}, Increasing l →
    l.takeWhile (fun f => decide (f.timestep ≤ m)) = l.filter (fun f => decide (f.timestep ≤ m))
  | [], _ => rfl
  | f :: l, h => by
    unfold Increasing at h
    rw [List.pairwise_cons] at h
    rw [List.takeWhile_cons, List.filter_cons]
    by_cases hf : f.timestep ≤ m
    · simp only [hf, decide_true, if_true]
      rw [takeWhile_limit h.2]
    · simp only [hf, decide_false, Bool.false_eq_true, if_false]
      symm
      rw [List.filter_eq_nil_iff]
      intro g hg
      have := h.1 g hg
      simp
      omega

/-- The linear reader, when all multiples of the interval are there: keyframe `k` gets what is at or after its start. -/
theorem linear_full {m interval kmax : Int} (hi : 1 ≤ interval) (fe : Option PyErr) (k : ℕ) (hk : (k : Int) ≤ kmax) :
    ∀ (fs : List (GFrame α)) (n q : ℕ), n = min q (kmax + 1).toNat → Increasing fs →
      (∀ f ∈ fs, ∀ j < q, (j : Int) * interval < f.timestep) → (∀ f ∈ fs, 0 ≤ f.timestep) →
      (∀ j : ℕ, q ≤ j → (∃ f ∈ fs, (j : Int) * interval ≤ f.timestep) → ∃ f ∈ fs, f.timestep = j * interval) →
      given k (linearReader (some m) interval kmax fe fs (List.range n)).1 =
        (fs.takeWhile (fun f => decide (f.timestep ≤ m))).filter (fun f => decide ((k : Int) * interval ≤ f.timestep))
  | [], _, _, _, _, _, _, _ => rfl
  | f :: fs, n, q, hn, hinc, hlow, hnonneg, hfull => by
    unfold Increasing at hinc
    rw [List.pairwise_cons] at hinc
    have hi0 : interval ≠ 0 := by omega
    simp only [linearReader, hi0, if_false, updateIndex_if]
    by_cases h1 : f.timestep ≤ m
    · have e1 : ¬ (some m).any (fun m => decide (f.timestep > m)) = true := by simpa using h1
      rw [if_neg e1, List.takeWhile_cons, if_pos (decide_eq_true h1)]
      -- a multiple of the interval is the next one
      have hnext : (q : Int) * interval ≤ f.timestep → f.timestep = q * interval := by
        intro hq
        obtain ⟨g, hg, he⟩ := hfull q le_rfl ⟨f, by simp, hq⟩
        rcases List.mem_cons.1 hg with rfl | hg
        · exact he
        · have := hinc.1 g hg
          omega
      have hmul : f.timestep % interval = 0 ↔ f.timestep = q * interval := by
        constructor
        · intro h0
          obtain ⟨c, hc⟩ := Int.dvd_of_emod_eq_zero h0
          have hc0 : 0 ≤ c := by
            by_contra hneg
            have : interval * c < 0 := mul_neg_of_pos_of_neg (by omega) (by omega)
            have := hnonneg f (by simp)
            omega
          apply hnext
          by_contra hlt
          have hcq : c < q := by
            by_contra hge
            have : (q : Int) * interval ≤ c * interval := mul_le_mul_of_nonneg_right (by omega) (by omega)
            rw [mul_comm c] at this
            omega
          have := hlow f (by simp) c.toNat (by omega)
          rw [Int.toNat_of_nonneg hc0, mul_comm] at this
          omega
        · intro h
          rw [h]
          exact Int.mul_emod_left _ _
      have htail : ∀ n' q', n' = min q' (kmax + 1).toNat → (∀ g ∈ fs, ∀ j < q', (j : Int) * interval < g.timestep) →
          q ≤ q' → (∀ j : ℕ, q' ≤ j → f.timestep ≠ j * interval) →
          given k (linearReader (some m) interval kmax fe fs (List.range n')).1 =
            (fs.takeWhile (fun f => decide (f.timestep ≤ m))).filter
              (fun f => decide ((k : Int) * interval ≤ f.timestep)) := by
        intro n' q' hn' hlow' hqq hne
        refine linear_full hi fe k hk fs n' q' hn' hinc.2 hlow' (fun g hg => hnonneg g (by simp [hg])) ?_
        rintro j hj ⟨g, hg, hle⟩
        obtain ⟨g', hg', he⟩ := hfull j (by omega) ⟨g, by simp [hg], hle⟩
        rcases List.mem_cons.1 hg' with rfl | hg'
        · exact absurd he (hne j hj)
        · exact ⟨g', hg', he⟩
      have hcons : ∀ (n' : ℕ) (out : List (List ℕ × GFrame α)), given k ((List.range n', f) :: out) =
          (if k < n' then [f] else []) ++ given k out := by
        intro n' out
        unfold given
        by_cases h : k < n' <;> simp [h]
      simp only [hcons, List.filter_cons]
      by_cases h2 : f.timestep = q * interval
      · have h3 : f.timestep % interval = 0 := hmul.2 h2
        simp only [h3, true_and]
        rw [htail _ (q + 1) (by split_ifs <;> omega) ?_ (by omega) ?_]
        · have hiff : k < (if (n : Int) ≤ kmax then n + 1 else n) ↔ (k : Int) * interval ≤ f.timestep := by
            rw [h2]
            have : (k : Int) * interval ≤ q * interval ↔ (k : Int) ≤ q :=
              ⟨fun h => le_of_mul_le_mul_right h (by omega), fun h => mul_le_mul_of_nonneg_right h (by omega)⟩
            rw [this]
            split_ifs <;> omega
          simp only [hiff]
          by_cases hc : (k : Int) * interval ≤ f.timestep <;> simp [hc]
        · intro g hg j hj
          rcases Nat.lt_or_eq_of_le (Nat.lt_succ_iff.1 hj) with h | h
          · exact hlow g (by simp [hg]) j h
          · subst h
            rw [← h2]
            exact hinc.1 g hg
        · intro j hj he
          rw [h2] at he
          have : (q : Int) = j := Int.eq_of_mul_eq_mul_right (by omega) he
          omega
      · have h3 : ¬ f.timestep % interval = 0 := fun h => h2 (hmul.1 h)
        simp only [h3, false_and, if_false]
        rw [htail n q hn (fun g hg => hlow g (by simp [hg])) le_rfl ?_]
        · have hlt : f.timestep < q * interval := by
            by_contra hge
            exact h2 (hnext (by omega))
          have hiff : k < n ↔ (k : Int) * interval ≤ f.timestep := by
            constructor
            · intro h
              exact le_of_lt (hlow f (by simp) k (by omega))
            · intro h
              have : (k : Int) * interval < q * interval := by omega
              have := lt_of_mul_lt_mul_right this (by omega)
              omega
          simp only [hiff]
          by_cases hc : (k : Int) * interval ≤ f.timestep <;> simp [hc]
        · intro j hj he
          exact h3 (by rw [he]; exact Int.mul_emod_left _ _)
    · have e1 : (some m).any (fun m => decide (f.timestep > m)) = true := by simpa using h1
      rw [if_pos e1, List.takeWhile_cons, if_neg (by simpa using h1)]
      rfl

section
variable {m linear interval kmax : Int}

/-- With as many linear steps as there are steps every step is on the series. -/
theorem wants_linear (hml : m ≤ linear) {st x : Int} (hst0 : 0 ≤ st) (hst : st ≤ x) (hx : x ≤ m) :
    Wants m linear st x := by
  rcases Int.lt_or_eq_of_le hx with h | h
  · refine Or.inr ⟨hst, h, 0, (x - st).toNat, ?_, ?_, Or.inl rfl⟩
    · omega
    · rw [Int.toNat_of_nonneg (by omega)]
      simp
  · exact Or.inl h

/-- With as many linear steps as there are steps, keyframe `k` starts at the `k`-th multiple of the interval. -/
theorem first_linear (hm : 0 ≤ m) (hl : 1 ≤ linear) (hml : m ≤ linear) (hi : 1 ≤ interval) {k : ℕ}
    (hk : (k : Int) < max 1 kmax) (hkm : (k : Int) * interval ≤ m) :
    firstStep (seriesList m linear interval kmax) k = some (k * interval) := by
  rcases Nat.eq_zero_or_pos k with rfl | hpos
  · rw [first_zero hm hl hi]
    simp
  · have hil : interval ≤ linear := by
      have : 1 * interval ≤ (k : Int) * interval := mul_le_mul_of_nonneg_right (by omega) (by omega)
      omega
    refine C09_keyframes_regular_partial m linear interval kmax hm hl hi ⟨0, interval.toNat, ?_, ?_, Or.inl rfl⟩ k hk hkm
    · omega
    · rw [Int.toNat_of_nonneg (by omega)]
      simp

theorem first_linear_inv (hm : 0 ≤ m) (hl : 1 ≤ linear) (hml : m ≤ linear) (hi : 1 ≤ interval) {k : ℕ} {st : Int}
    (h : firstStep (seriesList m linear interval kmax) k = some st) : st = k * interval := by
  have hk := first_lt hm hl hi h
  obtain ⟨q, rfl, hq⟩ := firstStep_mul hm hl hi h
  rcases Nat.lt_or_ge q k with hlt | hge
  · have h2 := first_linear (kmax := kmax) hm hl hml hi (k := q) (by omega) hq
    have := (first_mono hm hl hi h2 h).2 hlt
    omega
  · have hle : (k : Int) * interval ≤ q * interval := mul_le_mul_of_nonneg_right (by omega) (by omega)
    have h2 := first_linear (kmax := kmax) hm hl hml hi (k := k) hk (by omega)
    rw [h2] at h
    exact (Option.some.inj h).symm

end

end Verif.Pipeline
