import Verif.Viewer.SortLemmas
import Verif.Viewer.Props
/-!
# C161: pressures, temperatures and iterations are offered in increasing order

The viewer sorts the texts found in the names of the files.  Full statement: in every reachable
state the numbers among the choices of pressure, temperature and iteration are in increasing order
(`Increasing`).  That holds for numbers with the same number of digits before the point
(`C161_order_partial`); the temperature 10.0 is offered before 2.0 (`C161_order_refuted`).
-/

namespace Verif.Viewer

open Verif.Names (Under HasPT)

variable (env : Env)

/-- C161.  Each of the lists is in the order of texts. -/
theorem C161_texts (files : List Str) (timers : List Nat) (fresh : Nat) (s : State)
    (h : Reachable env files timers fresh s) :
    s.pressures.Pairwise (fun a b => ¬ b < a) ∧ s.temps.Pairwise (fun a b => ¬ b < a) ∧
    s.crystals.Pairwise (fun a b => ¬ b < a) ∧ s.iters.Pairwise (fun a b => ¬ b < a) := by
  obtain ⟨⟨f, ⟨p, d1, d2, c, d3, hp, ht, hc, hi⟩, -⟩, -⟩ := reachable_good env h
  rw [hp.list, ht.list, hc.list, hi.list]
  exact ⟨sortedKeys_pairwise _, sortedKeys_pairwise _, sortedKeys_pairwise _,
    sortedKeys_pairwise _⟩

/-- C161, part.  Numbers with the same number of digits before the point are in increasing order.
Missing from the full statement: numbers of different lengths. -/
theorem C161_order_partial (files : List Str) (timers : List Nat) (fresh : Nat) (s : State)
    (h : Reachable env files timers fresh s) :
    IncreasingInLength s.pressures ∧ IncreasingInLength s.temps ∧ IncreasingInLength s.iters := by
  obtain ⟨h1, h2, -, h4⟩ := C161_texts env files timers fresh s h
  exact ⟨increasing_of_pairwise h1, increasing_of_pairwise h2, increasing_of_pairwise h4⟩

/-- Two files at different temperatures. -/
def twoTemps : List Str :=
  ["dump-Trimer-P1.00-T2.0-ID1.gsd".toList, "dump-Trimer-P1.00-T10.0-ID1.gsd".toList]

theorem twoTemps_under1 : Under "dump-Trimer-P1.00-T2.0-ID1.gsd".toList "1.00".toList "2.0".toList
    "None".toList "1".toList :=
  ⟨⟨some "2.0".toList, some "1.00".toList, none, some "1".toList⟩, by decide, rfl, rfl,
    Or.inr ⟨rfl, rfl⟩, Or.inl rfl⟩

theorem twoTemps_under2 : Under "dump-Trimer-P1.00-T10.0-ID1.gsd".toList "1.00".toList
    "10.0".toList "None".toList "1".toList :=
  ⟨⟨some "10.0".toList, some "1.00".toList, none, some "1".toList⟩, by decide, rfl, rfl,
    Or.inr ⟨rfl, rfl⟩, Or.inl rfl⟩

theorem twoTemps_hasPT : ∀ f ∈ twoTemps, HasPT f := by
  intro f hf
  simp only [twoTemps, List.mem_cons, List.not_mem_nil, or_false] at hf
  rcases hf with rfl | rfl
  · obtain ⟨v, h1, h2, h3, -⟩ := twoTemps_under1
    exact ⟨v, _, _, h1, h2, h3, by decide, by decide⟩
  · obtain ⟨v, h1, h2, h3, -⟩ := twoTemps_under2
    exact ⟨v, _, _, h1, h2, h3, by decide, by decide⟩

theorem decimal_two : Decimal "2.0".toList 2 1 :=
  ⟨"2".toList, "0".toList, by unfold Digits; decide, by unfold Digits; decide, rfl,
    by
      change (2 : ℚ) = ((2 : Nat) : ℚ) * 10 ^ 0 + 0 + ((((0 : Nat) : ℚ) + 0) / 10)
      norm_num, .inr rfl⟩

theorem decimal_ten : Decimal "10.0".toList 10 2 :=
  ⟨"10".toList, "0".toList, by unfold Digits; decide, by unfold Digits; decide, rfl,
    by
      change (10 : ℚ) = ((1 : Nat) : ℚ) * 10 ^ 1 + (((0 : Nat) : ℚ) * 10 ^ 0 + 0) +
        ((((0 : Nat) : ℚ) + 0) / 10)
      norm_num, .inr rfl⟩

/-- C161, full statement.  The temperature 10.0 is offered before 2.0. -/
theorem C161_order_refuted : ∃ s, Reachable threeFrames twoTemps [] 0 s ∧ ¬ Increasing s.temps := by
  obtain ⟨s, hs⟩ := C70_opens threeFrames twoTemps [] 0 (by decide) twoTemps_hasPT
    (fun _ => ⟨3, rfl, by decide⟩) ⟨fun _ _ => rfl, fun _ _ _ => rfl⟩
  have h : Reachable threeFrames twoTemps [] 0 s := .start s hs
  refine ⟨s, h, fun hinc => ?_⟩
  obtain ⟨-, ht, -, -⟩ := C161_texts threeFrames twoTemps [] 0 s h
  obtain ⟨p, t, c, i, -, ⟨f, hf, hu⟩, ho⟩ := C70_selection threeFrames twoTemps [] 0 s h
  have hp : p = "1.00".toList := by
    simp only [twoTemps, List.mem_cons, List.not_mem_nil, or_false] at hf
    rcases hf with rfl | rfl
    · exact (Under.unique hu twoTemps_under1).1
    · exact (Under.unique hu twoTemps_under2).1
  subst hp
  have m1 := (ho.temps "2.0".toList).2 ⟨_, by simp [twoTemps], _, _, twoTemps_under1⟩
  have m2 := (ho.temps "10.0".toList).2 ⟨_, by simp [twoTemps], _, _, twoTemps_under2⟩
  obtain ⟨k, hk, ek⟩ := List.mem_iff_getElem.1 m1
  obtain ⟨j, hj, ej⟩ := List.mem_iff_getElem.1 m2
  rcases Nat.lt_trichotomy j k with hjk | hjk | hjk
  · have := hinc j k _ _ _ _ _ _ hjk (List.getElem?_eq_some_iff.2 ⟨hj, ej⟩)
      (List.getElem?_eq_some_iff.2 ⟨hk, ek⟩) decimal_ten decimal_two
    norm_num at this
  · subst hjk
    exact absurd (ek.symm.trans ej) (by decide)
  · have := List.pairwise_iff_getElem.1 ht k j hk hj hjk
    rw [ek, ej] at this
    exact this (by decide)

example : ∃ s, Reachable threeFrames twoTemps [] 0 s ∧ IncreasingInLength s.temps := by
  obtain ⟨s, h, -⟩ := C161_order_refuted
  exact ⟨s, h, (C161_order_partial _ _ _ _ s h).2.1⟩

end Verif.Viewer
