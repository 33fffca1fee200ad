import Mathlib.Algebra.BigOperators.Group.Finset.Basic
import Mathlib.Algebra.BigOperators.Field
import Mathlib.Algebra.Order.BigOperators.Group.Finset
import Mathlib.Data.Finset.Max
import Mathlib.Tactic.Linarith
import Mathlib.Tactic.NormNum
import Mathlib.Tactic.Ring
import Mathlib.Tactic.FieldSimp
import Verif.Thermo.ReadModel
/-!
# Property C110: what the dashboard reads from a file
-/

namespace Verif.Thermo

open scoped BigOperators

variable {ι K : Type}

/-! ## vocabulary -/

/-- The times at which there are records. -/
def times (rs : List (Rec ι K)) : Finset ℤ := (rs.map Rec.timestep).toFinset

/-- `v` is what is recorded last for time `t`. -/
def LastAt (rs : List (Rec ι K)) (t : ℤ) (v : ι → K) : Prop :=
  ∃ pre post, rs = pre ++ ⟨t, v⟩ :: post ∧ ∀ r ∈ post, r.timestep ≠ t

/-- The times in the millisecond number `k` after `lo`. -/
def window (T : Finset ℤ) (lo : ℤ) (k : ℕ) : Finset ℤ :=
  T.filter (fun t => lo + 200000 * k ≤ t ∧ t < lo + 200000 * (k + 1))

/-- The average of `f` over `T`; nothing for no times. -/
def IsAvg [Field K] (T : Finset ℤ) (f : ℤ → K) (x : Option K) : Prop :=
  (T = ∅ ∧ x = none) ∨ (T ≠ ∅ ∧ x = some ((∑ t ∈ T, f t) / T.card))

/-! ## helpers -/

theorem times_cons (r : Rec ι K) (rs : List (Rec ι K)) : times (r :: rs) = insert r.timestep (times rs) := by
  simp [times]

theorem mem_times {rs : List (Rec ι K)} {t : ℤ} : t ∈ times rs ↔ ∃ r ∈ rs, r.timestep = t := by
  simp [times]

theorem times_keepLast : ∀ rs : List (Rec ι K), times (keepLast rs) = times rs
  | [] => rfl
  | r :: rs => by
    unfold keepLast
    split
    · rename_i h
      simp only [List.any_eq_true, decide_eq_true_eq] at h
      rw [times_cons, times_keepLast rs, Finset.insert_eq_self.2 (mem_times.2 h)]
    · rw [times_cons, times_cons, times_keepLast rs]

theorem keepLast_nodup : ∀ rs : List (Rec ι K), ((keepLast rs).map Rec.timestep).Nodup
  | [] => List.nodup_nil
  | r :: rs => by
    unfold keepLast
    split
    · exact keepLast_nodup rs
    · rename_i h
      rw [List.map_cons, List.nodup_cons]
      refine ⟨?_, keepLast_nodup rs⟩
      intro hm
      have : r.timestep ∈ times (keepLast rs) := by simpa [times] using hm
      rw [times_keepLast, mem_times] at this
      apply h
      simpa using this

theorem keepLast_mem : ∀ rs : List (Rec ι K), ∀ r ∈ keepLast rs, LastAt rs r.timestep r.value
  | [], r, hr => by cases hr
  | a :: rs, r, hr => by
    have lift : LastAt rs r.timestep r.value → LastAt (a :: rs) r.timestep r.value := by
      rintro ⟨pre, post, h1, h2⟩
      exact ⟨a :: pre, post, by rw [h1]; rfl, h2⟩
    unfold keepLast at hr
    split at hr
    · exact lift (keepLast_mem rs r hr)
    · rename_i h
      rcases List.mem_cons.1 hr with rfl | hr
      · refine ⟨[], rs, rfl, ?_⟩
        intro s hs he
        apply h
        simp only [List.any_eq_true, decide_eq_true_eq]
        exact ⟨s, hs, he⟩
      · exact lift (keepLast_mem rs r hr)

theorem LastAt.unique {rs : List (Rec ι K)} {t : ℤ} {v w : ι → K} (h : LastAt rs t v) (h' : LastAt rs t w) :
    v = w := by
  obtain ⟨pre, post, rfl, h2⟩ := h
  obtain ⟨pre', post', h1, h3⟩ := h'
  rcases List.append_eq_append_iff.1 h1 with ⟨c, hc1, hc2⟩ | ⟨c, hc1, hc2⟩
  · cases c with
    | nil => simpa using (congrArg (fun l => l.head?) hc2)
    | cons d c =>
      simp only [List.cons_append, List.cons.injEq] at hc2
      exact absurd rfl (h2 ⟨t, w⟩ (by rw [hc2.2]; simp))
  · cases c with
    | nil => simpa using (congrArg (fun l => l.head?) hc2).symm
    | cons d c =>
      simp only [List.cons_append, List.cons.injEq] at hc2
      exact absurd rfl (h3 ⟨t, v⟩ (by rw [hc2.2]; simp))

/-- A sum over records with different times is a sum over the times. -/
theorem sum_records [Field K] (f : ℤ → K) (g : Rec ι K → K) : ∀ (l : List (Rec ι K)),
    (l.map Rec.timestep).Nodup → (∀ r ∈ l, g r = f r.timestep) →
    (l.map g).sum = ∑ t ∈ times l, f t ∧ l.length = (times l).card
  | [], _, _ => by simp [times]
  | r :: l, hn, hg => by
    rw [List.map_cons, List.nodup_cons] at hn
    have hr : r.timestep ∉ times l := by simpa [times] using hn.1
    obtain ⟨h1, h2⟩ := sum_records f g l hn.2 (fun s hs => hg s (by simp [hs]))
    rw [times_cons, Finset.sum_insert hr, Finset.card_insert_of_notMem hr, List.map_cons, List.sum_cons, h1,
      List.length_cons, h2, hg r (by simp)]
    exact ⟨rfl, rfl⟩

theorem times_bin (lo : ℤ) (k : ℕ) (l : List (Rec ι K)) : times (binOf lo k l) = window (times l) lo k := by
  ext t
  simp only [mem_times, window, Finset.mem_filter, binOf, List.mem_filter, decide_eq_true_eq]
  constructor
  · rintro ⟨r, ⟨hr, h⟩, rfl⟩
    exact ⟨⟨r, hr, rfl⟩, h⟩
  · rintro ⟨⟨r, hr, rfl⟩, h⟩
    exact ⟨r, ⟨hr, h⟩, rfl⟩

theorem mean_records [Field K] (f : ℤ → K) (g : Rec ι K → K) (l : List (Rec ι K))
    (hn : (l.map Rec.timestep).Nodup) (hg : ∀ r ∈ l, g r = f r.timestep) :
    IsAvg (times l) f (mean (l.map g)) := by
  obtain ⟨h1, h2⟩ := sum_records f g l hn hg
  cases l with
  | nil => left; exact ⟨rfl, rfl⟩
  | cons r l =>
    right
    refine ⟨by rw [times_cons]; exact Finset.insert_ne_empty _ _, ?_⟩
    have : ((r :: l).map g).isEmpty = false := rfl
    rw [mean, this]
    simp only [Bool.false_eq_true, if_false, List.length_map]
    rw [h1, h2]

/-! ## the property -/

/-- **C110.** Records with first time `lo` and last time `hi`: there is an averaged row for every
millisecond from `lo` to `hi`.  Row `k` is the average over the times in millisecond `k`, each counted once
and with the values recorded last; NaN if there are none. -/
theorem C110_rows [Field K] (rs : List (Rec ι K)) (last : ℤ → ι → K)
    (hlast : ∀ t ∈ times rs, LastAt rs t (last t)) {lo hi : ℤ} (hlo : IsLeast (times rs : Set ℤ) lo)
    (hhi : IsGreatest (times rs : Set ℤ) hi) :
    (readFile rs).length = ((hi - lo) / 200000).toNat + 1 ∧
    ∀ k (h : k < (readFile rs).length),
      IsAvg (window (times rs) lo k) (fun t => (t : K)) (readFile rs)[k].timestep ∧
      ∀ c, IsAvg (window (times rs) lo k) (fun t => last t c) ((readFile rs)[k].value c) := by
  have hmem : ∀ t, t ∈ (keepLast rs).map Rec.timestep ↔ t ∈ times rs := by
    intro t; rw [← times_keepLast]; simp [times]
  have hmin : ((keepLast rs).map Rec.timestep).min? = some lo := by
    rw [List.min?_eq_some_iff]
    exact ⟨(hmem lo).2 hlo.1, fun t ht => hlo.2 ((hmem t).1 ht)⟩
  have hmax : ((keepLast rs).map Rec.timestep).max? = some hi := by
    rw [List.max?_eq_some_iff]
    exact ⟨(hmem hi).2 hhi.1, fun t ht => hhi.2 ((hmem t).1 ht)⟩
  have hread : readFile rs = (List.range (((hi - lo) / 200000).toNat + 1)).map (fun k =>
      ⟨mean ((binOf lo k (keepLast rs)).map (fun r => (r.timestep : K))),
        fun c => mean ((binOf lo k (keepLast rs)).map (fun r => r.value c))⟩) := by
    unfold readFile resample
    rw [hmin, hmax]
  have hnd : ∀ k, ((binOf lo k (keepLast rs)).map Rec.timestep).Nodup := fun k =>
    (keepLast_nodup rs).sublist (List.Sublist.map _ (List.filter_sublist))
  refine ⟨by rw [hread]; simp, ?_⟩
  intro k h
  have hk : (readFile rs)[k] = ⟨mean ((binOf lo k (keepLast rs)).map (fun r => (r.timestep : K))),
        fun c => mean ((binOf lo k (keepLast rs)).map (fun r => r.value c))⟩ := by
    simp only [hread, List.getElem_map, List.getElem_range]
  rw [hk]
  refine ⟨?_, ?_⟩
  · have := mean_records (fun t => (t : K)) (fun r => (r.timestep : K)) _ (hnd k) (fun _ _ => rfl)
    rwa [times_bin, times_keepLast] at this
  · intro c
    have := mean_records (fun t => last t c) (fun r => r.value c) _ (hnd k) (by
      intro r hr
      have hr' : r ∈ keepLast rs := (List.mem_filter.1 hr).1
      have h1 := keepLast_mem rs r hr'
      have ht : r.timestep ∈ times rs := (hmem _).1 (List.mem_map_of_mem hr')
      rw [(hlast _ ht).unique h1])
    rwa [times_bin, times_keepLast] at this

/-- Three records, one of them written again after a restart and the last two milliseconds later: a row of
the first two times, an empty one, and one of the last. -/
def restarted : List (Rec Unit ℚ) :=
  [⟨0, fun _ => 1⟩, ⟨1000, fun _ => 7⟩, ⟨1000, fun _ => 3⟩, ⟨500000, fun _ => 5⟩]

example : ∃ last : ℤ → Unit → ℚ, (∀ t ∈ times restarted, LastAt restarted t (last t)) ∧
    IsLeast (times restarted : Set ℤ) 0 ∧ IsGreatest (times restarted : Set ℤ) 500000 := by
  have ht : times restarted = {0, 1000, 500000} := by decide
  refine ⟨fun t _ => if t = 0 then 1 else if t = 1000 then 3 else 5, ?_, ?_, ?_⟩
  · rw [ht]
    intro t h
    simp only [Finset.mem_insert, Finset.mem_singleton] at h
    rcases h with rfl | rfl | rfl
    · exact ⟨[], _, rfl, by simp⟩
    · exact ⟨[⟨0, fun _ => 1⟩, ⟨1000, fun _ => 7⟩], _, rfl, by simp⟩
    · exact ⟨[⟨0, fun _ => 1⟩, ⟨1000, fun _ => 7⟩, ⟨1000, fun _ => 3⟩], [], rfl, by simp⟩
  · rw [ht]; constructor <;> simp [lowerBounds]
  · rw [ht]; constructor <;> simp [upperBounds]

example : (readFile restarted).map (fun r => r.value ()) = [some 2, none, some 5] := by
  have h : readFile restarted = (List.range 3).map (fun k : ℕ =>
      ⟨mean ((binOf 0 k (keepLast restarted)).map (fun r => (r.timestep : ℚ))),
        fun c => mean ((binOf 0 k (keepLast restarted)).map (fun r => r.value c))⟩) := rfl
  have h0 : binOf 0 0 (keepLast restarted) = [⟨0, fun _ => 1⟩, ⟨1000, fun _ => 3⟩] := rfl
  have h1 : binOf 0 1 (keepLast restarted) = [] := rfl
  have h2 : binOf 0 2 (keepLast restarted) = [⟨500000, fun _ => 5⟩] := rfl
  rw [h]
  norm_num [List.range, List.range.loop, h0, h1, h2, mean]
  intro h
  cases h

/-- Every time is in exactly one of the milliseconds for which there is a row. -/
theorem C110_partition (T : Finset ℤ) {lo hi : ℤ} (hlo : IsLeast (T : Set ℤ) lo)
    (hhi : IsGreatest (T : Set ℤ) hi) (t : ℤ) (ht : t ∈ T) :
    ∃! k, k < ((hi - lo) / 200000).toNat + 1 ∧ t ∈ window T lo k := by
  have h1 : lo ≤ t := hlo.2 ht
  have h2 : t ≤ hi := hhi.2 ht
  refine ⟨((t - lo) / 200000).toNat, ⟨?_, ?_⟩, ?_⟩
  · omega
  · simp only [window, Finset.mem_filter]
    refine ⟨ht, ?_, ?_⟩ <;> omega
  · rintro k ⟨_, hk⟩
    simp only [window, Finset.mem_filter] at hk
    omega

example : IsLeast (({3, 5, 200003} : Finset ℤ) : Set ℤ) 3 ∧ IsGreatest (({3, 5, 200003} : Finset ℤ) : Set ℤ) 200003 := by
  constructor <;> constructor <;> simp [mem_lowerBounds, mem_upperBounds]

/-- No records, no rows. -/
theorem C110_empty [Field K] : readFile ([] : List (Rec ι K)) = [] := rfl

theorem avg_bounds [Field K] [LinearOrder K] [IsStrictOrderedRing K] {T : Finset ℤ} {lo : ℤ} {k : ℕ} {x : K}
    (h : IsAvg (window T lo k) (fun t => (t : K)) (some x)) :
    ((lo + 200000 * k : ℤ) : K) ≤ x ∧ x < ((lo + 200000 * (k + 1) : ℤ) : K) := by
  rcases h with ⟨_, h⟩ | ⟨hne, h⟩
  · cases h
  · obtain rfl := Option.some.inj h
    have hpos : (0 : K) < (window T lo k).card := by
      exact_mod_cast Finset.card_pos.2 (Finset.nonempty_iff_ne_empty.2 hne)
    rw [le_div_iff₀ hpos, div_lt_iff₀ hpos]
    constructor
    · have := Finset.card_nsmul_le_sum (window T lo k) (fun t => (t : K)) ((lo + 200000 * k : ℤ) : K) (by
        intro t ht
        have := (Finset.mem_filter.1 ht).2.1
        exact_mod_cast this)
      rw [nsmul_eq_mul] at this
      linarith
    · have := Finset.sum_lt_sum_of_nonempty (s := window T lo k) (f := fun t : ℤ => (t : K))
        (g := fun _ => ((lo + 200000 * (k + 1) : ℤ) : K)) (Finset.nonempty_iff_ne_empty.2 hne) (by
        intro t ht
        have := (Finset.mem_filter.1 ht).2.2
        exact_mod_cast this)
      rw [Finset.sum_const, nsmul_eq_mul] at this
      linarith

/-- The times of the rows increase, so the lines are drawn from left to right. -/
theorem C110_increasing [Field K] [LinearOrder K] [IsStrictOrderedRing K] (T : Finset ℤ) (lo : ℤ) {j k : ℕ}
    (hjk : j < k) {x y : K} (hx : IsAvg (window T lo j) (fun t => (t : K)) (some x))
    (hy : IsAvg (window T lo k) (fun t => (t : K)) (some y)) : x < y := by
  have h1 := (avg_bounds hx).2
  have h2 := (avg_bounds hy).1
  have : ((lo + 200000 * (j + 1) : ℤ) : K) ≤ ((lo + 200000 * k : ℤ) : K) := by
    have : lo + 200000 * ((j : ℤ) + 1) ≤ lo + 200000 * k := by omega
    exact_mod_cast this
  linarith

/-- Two records in the first window, one in the second. -/
example : IsAvg (window {3, 5, 200003} 3 0) (fun t => (t : ℚ)) (some 4) ∧
    IsAvg (window {3, 5, 200003} 3 1) (fun t => (t : ℚ)) (some 200003) := by
  have h0 : window {3, 5, 200003} 3 0 = {3, 5} := by decide
  have h1 : window {3, 5, 200003} 3 1 = {200003} := by decide
  rw [h0, h1]
  refine ⟨Or.inr ⟨by decide, ?_⟩, Or.inr ⟨by decide, ?_⟩⟩
  · rw [Finset.sum_pair (by decide), Finset.card_pair (by decide)]
    norm_num
  · rw [Finset.sum_singleton, Finset.card_singleton]
    norm_num

end Verif.Thermo
