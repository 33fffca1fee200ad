import Verif.Pipeline.LimitSpec
import Verif.Pipeline.ReaderProps
import Verif.StepSize.StableLemmas
/-!
# Lemmas: limits on steps and keyframes
-/

namespace Verif.Pipeline

open Verif.Motion Verif.Dynamics Verif.Gsd Verif.StepSize Verif.Process Verif.Cache

variable {ν : Type}

/-! ### The number of keyframes -/

theorem first_kmax {m linear interval M M' : Int} (hm : 0 ≤ m) (hl : 1 ≤ linear) (hi : 1 ≤ interval) (hM : M ≤ M')
    {k : ℕ} (hk : (k : Int) < max 1 M) :
    firstStep (seriesList m linear interval M) k = firstStep (seriesList m linear interval M') k := by
  have h := first_agree (m := m) (m' := m) (nl := linear) (gen := interval) (M := M) (M' := M') hm hm hl hi k hk
    (by omega)
  cases e : firstStep (seriesList m linear interval M) k with
  | some st => exact ((h st (Or.inl rfl)).1 e).symm
  | none =>
    cases e' : firstStep (seriesList m linear interval M') k with
    | none => rfl
    | some st =>
      have := (h st (Or.inl rfl)).2 e'
      rw [e] at this
      cases this

theorem series_kmax {m linear interval M M' : Int} (hm : 0 ≤ m) (hl : 1 ≤ linear) (hi : 1 ≤ interval) (hM : M ≤ M')
    {x : Int} (hx : x ∈ (seriesList m linear interval M).map Prod.fst) :
    x ∈ (seriesList m linear interval M').map Prod.fst := by
  obtain ⟨i, st, h1, h2⟩ := (C06_series_is_union m linear interval M hm hl hi x).1 hx
  refine (C06_series_is_union m linear interval M' hm hl hi x).2 ⟨i, st, ?_, h2⟩
  rw [← first_kmax hm hl hi hM (first_lt hm hl hi h1)]
  exact h1

theorem updateIndex_if (interval kmax t : Int) (n : ℕ) :
    updateIndex interval kmax t (List.range n) =
      List.range (if t % interval = 0 ∧ (n : Int) ≤ kmax then n + 1 else n) := by
  unfold updateIndex
  rw [List.length_range]
  split_ifs
  · rw [List.range_succ]
  · rfl

/-- The linear reader hands out the first so many keyframes. -/
theorem linear_ranges {α : Type} (stepsMax : Option Int) (interval kmax : Int) (fe : Option PyErr) :
    ∀ (fs : List (GFrame α)) (n : ℕ), ∀ p ∈ (linearReader stepsMax interval kmax fe fs (List.range n)).1,
      p.1.Nodup
  | [], _ => by simp [linearReader]
  | f :: fs, n => by
    simp only [linearReader, updateIndex_if]
    split_ifs <;> try simp
    all_goals
      refine ⟨List.nodup_range, ?_⟩
      intro a b hab
      exact linear_ranges stepsMax interval kmax fe fs _ (a, b) hab

/-- The index list is cut off at `kmax + 1`. -/
theorem linear_kmax {α : Type} (stepsMax : Option Int) (interval M M' : Int) (hM : M ≤ M') (fe : Option PyErr) (k : ℕ)
    (hk : (k : Int) ≤ M) :
    ∀ (fs : List (GFrame α)) (n n' : ℕ), n = min n' (M + 1).toNat →
      given k (linearReader stepsMax interval M fe fs (List.range n)).1 =
        given k (linearReader stepsMax interval M' fe fs (List.range n')).1
  | [], _, _, _ => rfl
  | f :: fs, n, n', hn => by
    simp only [linearReader]
    by_cases h0 : interval = 0
    · simp [h0]
    · simp only [h0, if_false, updateIndex_if]
      by_cases h1 : stepsMax.any (fun m => decide (f.timestep > m)) = true
      · simp [h1]
      · simp only [h1]
        have hn2 : (if f.timestep % interval = 0 ∧ (n : Int) ≤ M then n + 1 else n) =
            min (if f.timestep % interval = 0 ∧ (n' : Int) ≤ M' then n' + 1 else n') (M + 1).toNat := by
          by_cases ht : f.timestep % interval = 0
          · simp only [ht, true_and]
            split_ifs <;> omega
          · simp only [ht, false_and, if_false]
            exact hn
        have ih := linear_kmax stepsMax interval M M' hM fe k hk fs _ _ hn2
        generalize (if f.timestep % interval = 0 ∧ (n : Int) ≤ M then n + 1 else n) = a at *
        generalize (if f.timestep % interval = 0 ∧ (n' : Int) ≤ M' then n' + 1 else n') = b at *
        have hab : k < a ↔ k < b := by omega
        unfold given at ih ⊢
        simp only [Bool.false_eq_true, if_false, List.filter_cons, List.mem_range, hab]
        by_cases hb : k < b <;> simp [hb, ih]

/-! ### The number of steps -/

theorem wants_total {m m' linear st x : Int} (hmm : m ≤ m') (hx : x < m) :
    Wants m linear st x ↔ Wants m' linear st x := by
  unfold Wants
  constructor
  · rintro (h | ⟨h1, _, h3⟩)
    · omega
    · exact Or.inr ⟨h1, by omega, h3⟩
  · rintro (h | ⟨h1, _, h3⟩)
    · omega
    · exact Or.inr ⟨h1, hx, h3⟩

theorem total_mem {m linear interval kmax : Int} (hm : 0 ≤ m) (hl : 1 ≤ linear) (hi : 1 ≤ interval) :
    m ∈ (seriesList m linear interval kmax).map Prod.fst :=
  (C06_series_is_union m linear interval kmax hm hl hi m).2 ⟨0, 0, first_zero hm hl hi, Or.inl rfl⟩

/-- A frame that is not off the longer series is not off the shorter one. -/
theorem noneOff_shorter {α : Type} {raws : List (Raw α)} {m m' linear interval kmax : Int} (hm : 0 ≤ m) (hmm : m ≤ m')
    (hl : 1 ≤ linear) (hi : 1 ≤ interval) (h : NoneOff raws m' linear interval kmax) :
    NoneOff raws m linear interval kmax := by
  intro f hf hfm
  rcases Int.lt_or_eq_of_le hfm with hlt | heq
  · obtain ⟨i, st, h1, h2⟩ := (C06_series_is_union m' linear interval kmax (by omega) hl hi _).1 (h f hf (by omega))
    have hst : st ≤ f.timestep := by
      rcases h2 with h2 | h2
      · omega
      · exact h2.1
    have hk := first_lt (by omega) hl hi h1
    refine (C06_series_is_union m linear interval kmax hm hl hi _).2 ⟨i, st, ?_, (wants_total hmm hlt).2 h2⟩
    exact (first_agree hm (by omega) hl hi i hk hk st (Or.inr ⟨by omega, by omega⟩)).2 h1
  · rw [heq]
    exact total_mem hm hl hi

/-- What of the keyframe is before step `m` is the same for both. -/
theorem wanted_shorter {m m' linear interval kmax : Int} (hm : 0 ≤ m) (hmm : m ≤ m') (hl : 1 ≤ linear)
    (hi : 1 ≤ interval) (k : ℕ) {x : Int} (hx : x < m) :
    (∃ st, firstStep (seriesList m linear interval kmax) k = some st ∧ st ≤ x ∧ Wants m linear st x) ↔
    (∃ st, firstStep (seriesList m' linear interval kmax) k = some st ∧ st ≤ x ∧ Wants m' linear st x) := by
  constructor
  · rintro ⟨st, h1, h2, h3⟩
    have hk := first_lt hm hl hi h1
    exact ⟨st, (first_agree hm (by omega) hl hi k hk hk st (Or.inr ⟨by omega, by omega⟩)).1 h1, h2,
      (wants_total hmm hx).1 h3⟩
  · rintro ⟨st, h1, h2, h3⟩
    have hk := first_lt (by omega) hl hi h1
    exact ⟨st, (first_agree hm (by omega) hl hi k hk hk st (Or.inr ⟨by omega, by omega⟩)).2 h1, h2,
      (wants_total hmm hx).2 h3⟩

/-! ### Two lists of steps that agree up to a limit -/

/-- Two lists of steps that agree below `m` in the steps and in whether keyframe `k` is listed. -/
inductive Agree (m : Int) (k : ℕ) : List (Int × List ℕ) → List (Int × List ℕ) → Prop
  | beyond (S S' : List (Int × List ℕ)) : (∀ s ∈ S, m ≤ s.1) → (∀ s ∈ S', m ≤ s.1) → Agree m k S S'
  | cons (a b : Int × List ℕ) (S S' : List (Int × List ℕ)) : a.1 = b.1 → a.1 < m → (k ∈ a.2 ↔ k ∈ b.2) →
      Agree m k S S' → Agree m k (a :: S) (b :: S')

theorem agree_of {m : Int} {k : ℕ} : ∀ (S S' : List (Int × List ℕ)), (S.map Prod.fst).Pairwise (· < ·) →
    (S'.map Prod.fst).Pairwise (· < ·) → (∀ x < m, x ∈ S.map Prod.fst ↔ x ∈ S'.map Prod.fst) →
    (∀ a ∈ S, ∀ b ∈ S', a.1 = b.1 → a.1 < m → (k ∈ a.2 ↔ k ∈ b.2)) → Agree m k S S'
  | [], S', _, _, h3, _ => by
    refine .beyond _ _ (by simp) ?_
    intro s hs
    by_contra hc
    exact absurd ((h3 s.1 (by omega)).2 (List.mem_map_of_mem hs)) (by simp)
  | a :: S, S', h1, h2, h3, h4 => by
    rw [List.map_cons, List.pairwise_cons] at h1
    by_cases ha : a.1 < m
    · have hmem := (h3 a.1 ha).1 (by simp)
      cases S' with
      | nil => simp at hmem
      | cons b S' =>
        rw [List.map_cons, List.pairwise_cons] at h2
        have hba : b.1 ≤ a.1 := by
          rw [List.map_cons] at hmem
          rcases List.mem_cons.1 hmem with h | h
          · omega
          · exact le_of_lt (h2.1 _ h)
        have hmem' := (h3 b.1 (by omega)).2 (by simp)
        have hab : a.1 = b.1 := by
          rw [List.map_cons] at hmem'
          rcases List.mem_cons.1 hmem' with h | h
          · exact h.symm
          · have := h1.1 _ h
            omega
        refine .cons a b S S' hab ha (h4 a (by simp) b (by simp) hab ha) ?_
        refine agree_of S S' h1.2 h2.2 ?_ (fun x hx y hy => h4 x (by simp [hx]) y (by simp [hy]))
        intro x hx
        have := h3 x hx
        rw [List.map_cons, List.map_cons, List.mem_cons, List.mem_cons] at this
        constructor
        · intro h
          have hlt := h1.1 x h
          rcases this.1 (Or.inr h) with h' | h'
          · omega
          · exact h'
        · intro h
          have hlt := h2.1 x h
          rcases this.2 (Or.inr h) with h' | h'
          · omega
          · exact h'
    · have hall : ∀ s ∈ a :: S, m ≤ s.1 := by
        intro s hs
        rcases List.mem_cons.1 hs with rfl | hs
        · omega
        · have := h1.1 s.1 (List.mem_map_of_mem hs)
          omega
      refine .beyond _ _ hall ?_
      intro s hs
      by_contra hc
      obtain ⟨s', hs', he⟩ := List.mem_map.1 ((h3 s.1 (by omega)).2 (List.mem_map_of_mem hs))
      have := hall s' hs'
      omega

/-- What is handed out with keyframe `k` before step `m`. -/
def givenBelow {α : Type} (m : Int) (k : ℕ) (out : List (List ℕ × GFrame α) × Option PyErr) : List (GFrame α) :=
  (given k out.1).filter (fun f => decide (f.timestep < m))

theorem below_emit {α : Type} {m N : Int} {k : ℕ} {cur : Int × List ℕ} {f : GFrame α} (hN : cur.1 ≤ N)
    (next : List (List ℕ × GFrame α) × Option PyErr) :
    givenBelow m k (emit N cur f next) =
      (if cur.1 = f.timestep ∧ k ∈ cur.2 ∧ f.timestep < m then [f] else []) ++ givenBelow m k next := by
  unfold emit givenBelow given
  rw [if_neg (by omega)]
  by_cases h1 : cur.1 = f.timestep
  · rw [if_pos h1]
    by_cases h2 : k ∈ cur.2
    · by_cases h3 : f.timestep < m <;> simp [h1, h2, h3]
    · simp [h2]
  · rw [if_neg h1]
    simp [h1]

theorem below_beyond {α : Type} {m : Int} {k : ℕ} {out : List (List ℕ × GFrame α) × Option PyErr}
    {ss : List (Int × List ℕ)} (h : (out.1.map (fun p => (p.2.timestep, p.1))).Sublist ss) (hs : ∀ s ∈ ss, m ≤ s.1) :
    givenBelow m k out = [] := by
  unfold givenBelow given
  rw [List.filter_eq_nil_iff]
  intro f hf
  obtain ⟨p, hp, rfl⟩ := List.mem_map.1 hf
  have := hs _ (h.subset (List.mem_map.2 ⟨p, List.mem_of_mem_filter hp, rfl⟩))
  simpa using this

theorem catchSteps_agree {m : Int} {k : ℕ} {t : Int} {S S' : List (Int × List ℕ)} (h : Agree m k S S') :
    ∀ {a b : Int × List ℕ}, a.1 = b.1 → a.1 < m → (k ∈ a.2 ↔ k ∈ b.2) →
      (∃ a' b' T T', catchSteps t a S = some (a', T) ∧ catchSteps t b S' = some (b', T') ∧ a'.1 = b'.1 ∧ a'.1 < m ∧
        (k ∈ a'.2 ↔ k ∈ b'.2) ∧ Agree m k T T') ∨
      ((∀ q ∈ catchSteps t a S, ∀ s ∈ q.1 :: q.2, m ≤ s.1) ∧ (∀ q ∈ catchSteps t b S', ∀ s ∈ q.1 :: q.2, m ≤ s.1)) := by
  induction h with
  | beyond S S' h1 h2 =>
    intro a b hab ham hk
    by_cases ht : a.1 < t
    · right
      have key : ∀ (S : List (Int × List ℕ)) (a : Int × List ℕ), a.1 < t → (∀ s ∈ S, m ≤ s.1) →
          ∀ q ∈ catchSteps t a S, ∀ s ∈ q.1 :: q.2, m ≤ s.1 := by
        intro S a hat hS q hq s hs
        cases S with
        | nil => simp [catchSteps, hat] at hq
        | cons c S =>
          rw [catchSteps, if_pos hat] at hq
          have := (catchSteps_suffix t S c q.1 q.2 hq).1
          exact hS s (this.subset hs)
      exact ⟨key S a ht h1, key S' b (by omega) h2⟩
    · left
      refine ⟨a, b, S, S', ?_, ?_, hab, ham, hk, .beyond S S' h1 h2⟩
      · cases S <;> rw [catchSteps, if_neg ht]
      · cases S' <;> rw [catchSteps, if_neg (by omega)]
  | cons c d S S' hcd hcm hkc hA ih =>
    intro a b hab ham hk
    by_cases ht : a.1 < t
    · rw [catchSteps, if_pos ht, catchSteps, if_pos (by omega)]
      exact ih hcd hcm hkc
    · left
      refine ⟨a, b, c :: S, d :: S', ?_, ?_, hab, ham, hk, .cons c d S S' hcd hcm hkc hA⟩
      · rw [catchSteps, if_neg ht]
      · rw [catchSteps, if_neg (by omega)]

/-- The reader hands out the same below `m` for lists of steps that agree there. -/
theorem exp_agree {α : Type} {m N N' : Int} (hN : m ≤ N) (hN' : m ≤ N') {k : ℕ} (fe fe' : Option PyErr) :
    ∀ (fs : List (GFrame α)),
    (∀ S S', Agree m k S S' → givenBelow m k (expReader N fe fs S) = givenBelow m k (expReader N' fe' fs S')) ∧
    (∀ a b S S', a.1 = b.1 → a.1 < m → (k ∈ a.2 ↔ k ∈ b.2) → Agree m k S S' →
      givenBelow m k (catchFrames N fe a fs S) = givenBelow m k (catchFrames N' fe' b fs S')) := by
  intro fs
  induction fs with
  | nil => exact ⟨fun S S' _ => by simp [expReader, givenBelow, given], fun a b S S' _ _ _ _ => by
      simp [catchFrames, givenBelow, given]⟩
  | cons f fs ih =>
    obtain ⟨ih1, ih2⟩ := ih
    have hemit : ∀ (a b : Int × List ℕ) (S S' : List (Int × List ℕ)), a.1 = b.1 → a.1 < m → (k ∈ a.2 ↔ k ∈ b.2) →
        Agree m k S S' → givenBelow m k (emit N a f (expReader N fe fs S)) = givenBelow m k (emit N' b f (expReader N' fe' fs S')) := by
      intro a b S S' hab ham hk hA
      rw [below_emit (by omega), below_emit (by omega), ih1 S S' hA]
      simp only [hab, hk]
    refine ⟨?_, ?_⟩
    · intro S S' hA
      cases hA with
      | beyond S S' h1 h2 =>
        rw [below_beyond ((exp_sublist N fe (f :: fs)).1 S).2 h1, below_beyond ((exp_sublist N' fe' (f :: fs)).1 S').2 h2]
      | cons a b S S' hab ham hk hA =>
        rw [expReader, expReader]
        by_cases hc1 : a.1 > f.timestep
        · rw [if_pos hc1, if_pos (by omega)]
          exact ih2 a b S S' hab ham hk hA
        · have hb1 : ¬ b.1 > f.timestep := by omega
          rw [if_neg hc1, if_neg hb1]
          by_cases hc2 : a.1 < f.timestep
          · have hb2 : b.1 < f.timestep := by omega
            rw [if_pos hc2, if_pos hb2]
            rcases catchSteps_agree (t := f.timestep) hA hab ham hk with
              ⟨a', b', T, T', e1, e2, hab', ham', hk', hA'⟩ | ⟨h1, h2⟩
            · rw [e1, e2]
              exact hemit a' b' T T' hab' ham' hk' hA'
            · have key : ∀ (N : Int) (fe : Option PyErr) (o : Option ((Int × List ℕ) × List (Int × List ℕ))),
                  (∀ q ∈ o, ∀ s ∈ q.1 :: q.2, m ≤ s.1) →
                  givenBelow m k (match o with
                    | none => (([], none) : List (List ℕ × GFrame α) × Option PyErr)
                    | some (cur', ss') => emit N cur' f (expReader N fe fs ss')) = [] := by
                intro N fe o ho
                cases o with
                | none => simp [givenBelow, given]
                | some q =>
                  obtain ⟨c, T⟩ := q
                  exact below_beyond (emit_sublist N c f fs T _ ((exp_sublist N fe fs).1 T).1
                    ((exp_sublist N fe fs).1 T).2).2 (ho (c, T) rfl)
              exact (key N fe _ h1).trans (key N' fe' _ h2).symm
          · have hb2 : ¬ b.1 < f.timestep := by omega
            rw [if_neg hc2, if_neg hb2]
            exact hemit a b S S' hab ham hk hA
    · intro a b S S' hab ham hk hA
      rw [catchFrames, catchFrames]
      by_cases hc : f.timestep < a.1
      · rw [if_pos hc, if_pos (by omega)]
        exact ih2 a b S S' hab ham hk hA
      · rw [if_neg hc, if_neg (by omega)]
        exact hemit a b S S' hab ham hk hA

/-- The series of two numbers of steps agree below the smaller one. -/
theorem series_agree {m m' linear interval kmax : Int} (hm : 0 ≤ m) (hmm : m ≤ m') (hl : 1 ≤ linear)
    (hi : 1 ≤ interval) (k : ℕ) :
    Agree m k (seriesList m linear interval kmax) (seriesList m' linear interval kmax) := by
  refine agree_of _ _ (C05_series_runs_from_zero_to_total m linear interval kmax hm hl hi).2.2.1
    (C05_series_runs_from_zero_to_total m' linear interval kmax (by omega) hl hi).2.2.1 ?_ ?_
  · intro x hx
    have hle : ∀ {n st : Int}, m ≤ n → Wants n linear st x → st ≤ x := by
      intro n st hn h
      rcases h with h | h
      · omega
      · exact h.1
    rw [C06_series_is_union m linear interval kmax hm hl hi x,
      C06_series_is_union m' linear interval kmax (by omega) hl hi x]
    constructor
    · rintro ⟨i, st, h1, h2⟩
      obtain ⟨st', h3, _, h4⟩ := (wanted_shorter hm hmm hl hi i hx).1 ⟨st, h1, hle le_rfl h2, h2⟩
      exact ⟨i, st', h3, h4⟩
    · rintro ⟨i, st, h1, h2⟩
      obtain ⟨st', h3, _, h4⟩ := (wanted_shorter hm hmm hl hi i hx).2 ⟨st, h1, hle hmm h2, h2⟩
      exact ⟨i, st', h3, h4⟩
  · intro a ha b hb hab ham
    rw [(C07_get_index_exact m linear interval kmax hm hl hi a.1 a.2 ha).2 k,
      (C07_get_index_exact m' linear interval kmax (by omega) hl hi b.1 b.2 hb).2 k, ← hab]
    exact wanted_shorter hm hmm hl hi k ham

/-! ### Frames of a keyframe -/

theorem framesOf_given {Φ D R ρ σ : Type} {α : Type} (E : Env (GFrame α) D R ρ σ Φ) (k : ℕ)
    (pairs : List (List ℕ × GFrame α)) (h : ∀ p ∈ pairs, p.1.Nodup) :
    framesOf k (visitsOf E pairs) = (given k pairs).filter (fun f => decide (E.numPos f ≠ 0)) := by
  rw [framesOf_visits E k pairs h]
  unfold given
  induction pairs with
  | nil => rfl
  | cons p pairs ih =>
    have ih := ih (fun q hq => h q (by simp [hq]))
    rw [List.filterMap_cons]
    by_cases h1 : k ∈ p.1
    · by_cases h2 : E.numPos p.2 = 0 <;> simp [h1, h2, ih]
    · simp [h1, ih]

theorem given_filter {α : Type} (k : ℕ) (pairs : List (List ℕ × GFrame α)) (P : GFrame α → Prop) [DecidablePred P]
    (hP : ∀ p ∈ pairs, k ∈ p.1 ↔ P p.2) : given k pairs = (pairs.map Prod.snd).filter (fun f => decide (P f)) := by
  unfold given
  rw [List.filter_map]
  congr 1
  apply List.filter_congr
  intro p hp
  simp [hP p hp]

open Classical in
/-- The frames that the exponential reader gives to keyframe `k`, when nothing is missing or nothing is in between. -/
theorem given_exponential {α : Type} (raws : List (Raw α)) (m interval kmax linear : Int) (hc : OnlyCorrupt raws)
    (hinc : Increasing (readable raws)) (hm0 : 0 ≤ m) (hi : 1 ≤ interval) (hl : 1 ≤ linear)
    (h : NoneOff raws m linear interval kmax ∨ NoneMissing raws m linear interval kmax) (k : ℕ) :
    given k (readGsd raws (some m) (some linear) interval kmax).1 =
      (readable raws).filter (fun f => decide (
        ∃ st, firstStep (seriesList m linear interval kmax) k = some st ∧ st ≤ f.timestep ∧
          Wants m linear st f.timestep)) := by
  obtain ⟨e1, -⟩ := C12_exponential_complete_partial raws m interval kmax linear hc hinc hm0 hi hl h
  obtain ⟨-, -, e2⟩ := C11_exponential_sound raws (some m) interval kmax linear m rfl hm0 hi hl
  rw [given_filter k _ (fun f => ∃ st, firstStep (seriesList m linear interval kmax) k = some st ∧ st ≤ f.timestep ∧
      Wants m linear st f.timestep) (fun p hp => (e2 p hp).2.2.2 k), e1, List.filter_filter]
  apply List.filter_congr
  intro f _
  rw [Bool.and_eq_left_iff_imp]
  intro hP
  obtain ⟨st, h1, h2, h3⟩ := of_decide_eq_true hP
  exact decide_eq_true ((C06_series_is_union m linear interval kmax hm0 hl hi f.timestep).2 ⟨k, st, h1, h3⟩)

/-- The linear reader goes on for longer with a larger limit. -/
theorem linear_limit {α : Type} (m interval kmax : Int) (stepsMax : Option Int) (hs : ∀ m', stepsMax = some m' → m ≤ m')
    (fe : Option PyErr) :
    ∀ (fs : List (GFrame α)) (il : List ℕ),
      (linearReader (some m) interval kmax fe fs il).1 =
        (linearReader stepsMax interval kmax fe fs il).1.takeWhile (fun p => decide (p.2.timestep ≤ m))
  | [], _ => rfl
  | f :: fs, il => by
    simp only [linearReader]
    by_cases h0 : interval = 0
    · simp [h0]
    · simp only [h0, if_false]
      by_cases h1 : f.timestep > m
      · have e1 : (some m).any (fun m => decide (f.timestep > m)) = true := by simp [h1]
        rw [if_pos e1]
        split_ifs
        · rfl
        · rw [List.takeWhile_cons, if_neg (by simpa using h1)]
      · have e1 : ¬ (some m).any (fun m => decide (f.timestep > m)) = true := by simpa using h1
        have e2 : ¬ stepsMax.any (fun m => decide (f.timestep > m)) = true := by
          cases stepsMax with
          | none => simp
          | some m' =>
            have := hs m' rfl
            simp
            omega
        rw [if_neg e1, if_neg e2, List.takeWhile_cons, if_pos (by simpa using h1)]
        simp only
        rw [linear_limit m interval kmax stepsMax hs fe fs]

/-! ### Rows of more frames -/

theorem soloRows_append {Φ D R ρ σ ν : Type} (E : Env Φ D R ρ σ ν) (A : List Φ) : ∀ B : List Φ,
    ∃ extra, soloRows E (A ++ B) = soloRows E A ++ extra ∧ extra.length ≤ B.length := by
  intro B
  cases A with
  | nil =>
    refine ⟨soloRows E B, by simp [soloRows, solo], ?_⟩
    unfold soloRows
    cases B with
    | nil => simp [solo]
    | cons f fs =>
      have key : ∀ (l : List Φ) (s : (D × R) × List ρ),
          (l.foldl (fun s f => ((soloStep E s.1 f).1, s.2 ++ (soloStep E s.1 f).2.toList)) s).2.length ≤
            s.2.length + l.length := by
        intro l
        induction l with
        | nil => intro s; simp
        | cons g l ih =>
          intro s
          simp only [List.foldl_cons, List.length_cons]
          refine le_trans (ih _) ?_
          simp only [List.length_append]
          have : (soloStep E s.1 g).2.toList.length ≤ 1 := by cases (soloStep E s.1 g).2 <;> simp
          omega
      simp only [solo]
      split
      · simp only [Option.map_some, Option.getD_some]
        exact le_trans (key _ _) (by simp)
      · simp
  | cons g A =>
    cases hs : solo E (g :: A) with
    | none =>
      refine ⟨[], ?_, by simp⟩
      have : solo E (g :: A ++ B) = none := by
        simp only [solo, List.cons_append] at hs ⊢
        revert hs
        cases E.newDyn g <;> cases E.newRelax g <;> simp
      simp only [soloRows, hs, this, Option.map_none, Option.getD_none, List.append_nil]
    | some s =>
      induction B using List.reverseRecOn with
      | nil => exact ⟨[], by simp, by simp⟩
      | append_singleton B f ih =>
        obtain ⟨extra, h1, h2⟩ := ih
        have hne : ∃ s', solo E (g :: A ++ B) = some s' := by
          simp only [solo, List.cons_append] at hs ⊢
          revert hs
          cases E.newDyn g <;> cases E.newRelax g <;> simp
        obtain ⟨s', hs'⟩ := hne
        have h3 := solo_snoc E (g :: A ++ B) f s' hs'
        refine ⟨extra ++ (soloStep E s'.1 f).2.toList, ?_, ?_⟩
        · rw [← List.append_assoc, ← List.append_assoc, ← h1]
          unfold soloRows
          rw [h3, hs']
          rfl
        · rw [List.length_append, List.length_append]
          have : (soloStep E s'.1 f).2.toList.length ≤ 1 := by cases (soloStep E s'.1 f).2 <;> simp
          simp only [List.length_cons, List.length_nil]
          omega

/-- Frames in order, parted at a step. -/
theorem filter_split {α : Type} {l : List (GFrame α)} (h : Increasing l) (m : Int) :
    l = l.filter (fun f => decide (f.timestep < m)) ++ l.filter (fun f => decide (m ≤ f.timestep)) := by
  unfold Increasing at h
  induction l with
  | nil => rfl
  | cons f l ih =>
    rw [List.pairwise_cons] at h
    by_cases hf : f.timestep < m
    · rw [List.filter_cons_of_pos (by simpa using hf), List.filter_cons_of_neg (by simpa using hf), List.cons_append,
        ← ih h.2]
    · have hnone : (f :: l).filter (fun f => decide (f.timestep < m)) = [] := by
        rw [List.filter_eq_nil_iff]
        intro g hg
        rcases List.mem_cons.1 hg with rfl | hg
        · simpa using hf
        · have := h.1 g hg
          simp
          omega
      have hall : (f :: l).filter (fun f => decide (m ≤ f.timestep)) = f :: l := by
        rw [List.filter_eq_self]
        intro g hg
        rcases List.mem_cons.1 hg with rfl | hg
        · simpa using hf
        · have := h.1 g hg
          simp
          omega
      rw [hnone, hall]
      rfl

end Verif.Pipeline
