import Verif.Relax.Props
/-!
# C122: `2**32-1` as the mark of a molecule that has not relaxed
-/

namespace Verif.Relax

variable {K : Type} [LinearOrder K]

/-- **C122, the property as stated**: the time `2**32-1` is reported for the molecules which never exceed
the threshold, and for no others. -/
def MarksNever (K : Type) [LinearOrder K] : Prop :=
  ∀ (n : Nat) (thr : Option K) (k : Kind) (hist : List (Int × List (Option K))),
    (∀ p ∈ hist, p.2.length = n) →
    ∃ r, (First.new n thr k).run hist = .ok r ∧ ∀ m < n, ∃ s, r.getStatus[m]? = some s ∧
      (s = 2 ^ 32 - 1 ↔ ∀ q ∈ ofMol m hist, ¬ Exceeds q.2 thr)

/-- **C122** for all runs shorter than `2**32-1` steps, frames in any order. -/
theorem C122_first_partial (n : Nat) (thr : Option K) (k : Kind) (hist : List (Int × List (Option K)))
    (hlen : ∀ p ∈ hist, p.2.length = n) (hmax : ∀ p ∈ hist, p.1 < 2 ^ 32 - 1) :
    ∃ r, (First.new n thr k).run hist = .ok r ∧ ∀ m < n, ∃ s, r.getStatus[m]? = some s ∧
      (s = 2 ^ 32 - 1 ↔ ∀ q ∈ ofMol m hist, ¬ Exceeds q.2 thr) := by
  obtain ⟨r, h1, -, h2⟩ := C41_first_passage n thr k hist hlen
  refine ⟨r, h1, fun m hm => ?_⟩
  obtain ⟨s, h3, h4, h5⟩ := h2 m hm
  refine ⟨s, h3, fun hs q hq he => ?_, fun h => ?_⟩
  · have := h5 (Or.inr ⟨q, hq, he, rfl⟩)
    obtain ⟨p, hp, rfl⟩ := List.mem_map.1 hq
    have := hmax p hp
    simp only at *
    omega
  · rcases h4 with h4 | ⟨q, hq, he, -⟩
    · exact h4
    · exact absurd he (h q hq)

example : ∀ p ∈ [((5 : Int), [some (2 : ℚ)])], p.1 < 2 ^ 32 - 1 := by simp

/-- **C122**, last passage: `2**32-1` marks the molecules which have not gone beyond the cutoff, unless
one of the frames is at that very time. -/
theorem C122_last_partial (n : Nat) (thr cut : Option K) (k : Kind) (hist : List (Int × List (Option K)))
    (hlen : ∀ p ∈ hist, p.2.length = n) (hmax : ∀ p ∈ hist, p.1 ≠ 2 ^ 32 - 1) :
    ∃ r, (Last.new n thr cut k).run hist = .ok r ∧ ∀ m < n, ∃ s, r.getStatus[m]? = some s ∧
      (s = 2 ^ 32 - 1 ↔ ∀ i, ¬ FirstIrreversible thr cut (ofMol m hist) i) := by
  obtain ⟨r, h1, -, h2⟩ := C42_last_passage n thr cut k hist hlen
  refine ⟨r, h1, fun m hm => ?_⟩
  obtain ⟨s, h3, h4⟩ := h2 m hm
  refine ⟨s, h3, fun hs => ?_, fun h => ?_⟩
  · rcases h4 with ⟨h4, -⟩ | ⟨i, j, -, -, hj⟩
    · exact h4
    · exfalso
      obtain ⟨q, hq, rfl⟩ := Option.map_eq_some_iff.1 hj
      obtain ⟨p, hp, rfl⟩ := List.mem_map.1 (List.mem_of_getElem? hq)
      exact hmax p hp hs
  · rcases h4 with ⟨-, h4⟩ | ⟨i, j, hi, -⟩
    · exact h4
    · exact absurd hi (h i)

example : ∀ p ∈ [((2 : Int) ^ 32, [some (2 : ℚ)])], p.1 ≠ 2 ^ 32 - 1 := by simp

/-- **C122**, what happens to the others: a molecule which first exceeds the threshold at step `2**32-1`
or later is reported as never having done so, for every threshold and whatever follows. -/
theorem C122_late (n : Nat) (thr : Option K) (k : Kind) (hist : List (Int × List (Option K)))
    (hlen : ∀ p ∈ hist, p.2.length = n) (m : Nat) (hm : m < n)
    (hlate : ∀ q ∈ ofMol m hist, Exceeds q.2 thr → 2 ^ 32 - 1 ≤ q.1) :
    ∃ r, (First.new n thr k).run hist = .ok r ∧ r.getStatus[m]? = some (2 ^ 32 - 1) := by
  obtain ⟨r, h1, -, h2⟩ := C41_first_passage n thr k hist hlen
  obtain ⟨s, h3, h4, h5⟩ := h2 m hm
  refine ⟨r, h1, h3.trans (congrArg some ?_)⟩
  have a : s ≤ 2 ^ 32 - 1 := h5 (Or.inl rfl)
  rcases h4 with h4 | ⟨q, hq, he, rfl⟩
  · exact h4
  · exact le_antisymm a (hlate q hq he)

/-- One molecule of two, late. -/
example : ∀ q ∈ ofMol 1 [((3 : Int), [some (5 : ℚ), some 0]), (2 ^ 32, [some 7, some 8])],
    Exceeds q.2 (some 1) → 2 ^ 32 - 1 ≤ q.1 := by
  simp [ofMol, Exceeds]

/-- **C122 is false of the code**: one molecule at rest until step 2^32. -/
theorem C122_refuted : ¬ MarksNever ℚ := by
  intro h
  obtain ⟨r, h1, h2⟩ := h 1 (some 1) .translation [(2 ^ 32, [some 2])] (by simp)
  obtain ⟨r', h3, h4⟩ := C122_late 1 (some (1 : ℚ)) .translation [(2 ^ 32, [some 2])] (by simp) 0 (by simp)
    (by simp [ofMol, Exceeds])
  obtain ⟨s, h5, h6⟩ := h2 0 (by simp)
  rw [h1] at h3
  cases h3
  rw [h4] at h5
  cases h5
  exact h6.1 rfl (2 ^ 32, some 2) (by simp [ofMol]) ⟨2, 1, rfl, rfl, by norm_num⟩

/-- **C122**, the columns of one table: `tau_L ≤ tau_D` (C44) needs the bound on the times.  The molecule
has a last-passage time of 2^32 while it is reported never to have gone as far. -/
theorem C122_columns_refuted : ¬ (∀ (dist pi : ℚ), 0 ≤ dist → 0 ≤ pi →
    ∀ (frames : List (Int × List (Option ℚ) × List (Option ℚ))),
    (∀ f ∈ frames, f.2.1.length = 1 ∧ f.2.2.length = 1) → frames.Pairwise (fun f g => f.1 ≤ g.1) →
    ∃ D L, cell (runAll (setMolRelax 1 [] (defaults dist pi)).1 frames).1 "tau_D" 0 = some D ∧
      cell (runAll (setMolRelax 1 [] (defaults dist pi)).1 frames).1 "tau_L" 0 = some L ∧ L ≤ D) := by
  intro h
  obtain ⟨D, L, h1, h2, h3⟩ := h 1 3 (by norm_num) (by norm_num) [(2 ^ 32, [some 4], [some 0])] (by simp)
    (by simp)
  have e1 : cell (runAll (setMolRelax (K := ℚ) 1 [] (defaults 1 3)).1
      [(2 ^ 32, [some 4], [some 0])]).1 "tau_D" 0 = some (2 ^ 32 - 1) := by decide +kernel
  have e2 : cell (runAll (setMolRelax (K := ℚ) 1 [] (defaults 1 3)).1
      [(2 ^ 32, [some 4], [some 0])]).1 "tau_L" 0 = some (2 ^ 32) := by decide +kernel
  rw [e1] at h1
  rw [e2] at h2
  cases h1
  cases h2
  norm_num at h3

/-- **C122, exactly**, first passage: `2**32-1` is reported for the molecules which do not exceed the
threshold in any frame before that step, and for no others. -/
theorem C122_exactly (n : Nat) (thr : Option K) (k : Kind) (hist : List (Int × List (Option K)))
    (hlen : ∀ p ∈ hist, p.2.length = n) :
    ∃ r, (First.new n thr k).run hist = .ok r ∧ ∀ m < n, ∃ s, r.getStatus[m]? = some s ∧
      (s = 2 ^ 32 - 1 ↔ ∀ q ∈ ofMol m hist, Exceeds q.2 thr → 2 ^ 32 - 1 ≤ q.1) ∧
      ((s = 2 ^ 32 - 1 ↔ ∀ q ∈ ofMol m hist, ¬ Exceeds q.2 thr) ↔
        ((∃ q ∈ ofMol m hist, Exceeds q.2 thr) →
          ∃ q ∈ ofMol m hist, Exceeds q.2 thr ∧ q.1 < 2 ^ 32 - 1)) := by
  obtain ⟨r, h1, -, h2⟩ := C41_first_passage n thr k hist hlen
  refine ⟨r, h1, fun m hm => ?_⟩
  obtain ⟨s, h3, h4, h5⟩ := h2 m hm
  have key : s = 2 ^ 32 - 1 ↔ ∀ q ∈ ofMol m hist, Exceeds q.2 thr → 2 ^ 32 - 1 ≤ q.1 := by
    constructor
    · intro hs q hq he
      rw [← hs]
      exact h5 (Or.inr ⟨q, hq, he, rfl⟩)
    · intro hl
      have a : s ≤ 2 ^ 32 - 1 := h5 (Or.inl rfl)
      rcases h4 with h4 | ⟨q, hq, he, rfl⟩
      · exact h4
      · exact le_antisymm a (hl q hq he)
  refine ⟨s, h3, key, ?_⟩
  rw [key]
  constructor
  · intro h ⟨q, hq, he⟩
    by_contra hn
    refine h.1 (fun q' hq' he' => ?_) q hq he
    by_contra hlt
    exact hn ⟨q', hq', he', by omega⟩
  · intro h
    refine ⟨fun hl q hq he => ?_, fun hno q hq he => absurd he (hno q hq)⟩
    obtain ⟨q', hq', he', hlt⟩ := h ⟨q, hq, he⟩
    have := hl q' hq' he'
    omega

/-- A molecule that leaves at step 3 and one that leaves at step 2^32. -/
example : ∃ r, (First.new 2 (some (1 : ℚ)) .translation).run
    [(3, [some 5, some 0]), (2 ^ 32, [some 7, some 8])] = .ok r ∧
    ∃ s, r.getStatus[1]? = some s ∧ s = 2 ^ 32 - 1 := by
  obtain ⟨r, h1, h2⟩ := C122_exactly 2 (some (1 : ℚ)) .translation
    [(3, [some 5, some 0]), (2 ^ 32, [some 7, some 8])] (by simp)
  obtain ⟨s, h3, h4, -⟩ := h2 1 (by omega)
  exact ⟨r, h1, s, h3, h4.2 (by simp [ofMol, Exceeds])⟩

end Verif.Relax
