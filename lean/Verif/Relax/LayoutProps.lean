import Mathlib.Algebra.Order.BigOperators.Ring.Finset
import Verif.Relax.StructProps
/-!
# Exactly for which molecules the averages over particles are right: C103
-/

namespace Verif.Relax

/-- The averages are right for `n` molecules of `p` particles in the layout of the package. -/
def StructStatusOf (n p : ℕ) : Prop :=
  ∀ (thr : Option ℚ) (hist : List (Int × List (Option ℚ))), (∀ q ∈ hist, q.2.length = n * p) →
    ∃ r l, (Struct.new n thr p).run hist = .ok r ∧ r.getStatus = .ok l ∧
      ParticleAverages n p (fun m j => j * n + m) thr hist l

theorem one_frame_first {thr : Option ℚ} {t : ℤ} {l : List (Option ℚ)} {i : ℕ} {s : ℤ}
    (h : FirstTime thr (ofMol i [(t, l)]) s) (ht : t ≤ 2 ^ 32 - 1) :
    (Exceeds (l.getD i none) thr → s = t) ∧ (¬ Exceeds (l.getD i none) thr → s = 2 ^ 32 - 1) ∧ t ≤ s := by
  obtain ⟨h1, h2⟩ := h
  refine ⟨fun he => ?_, fun he => ?_, ?_⟩
  · have : s ≤ t := h2 (Or.inr ⟨(t, l.getD i none), by simp [ofMol], he, rfl⟩)
    rcases h1 with e | ⟨q, hq, -, e⟩
    · omega
    · simp only [ofMol, List.map_cons, List.map_nil, List.mem_singleton] at hq
      rw [e, hq]
  · rcases h1 with e | ⟨q, hq, hx, -⟩
    · exact e
    · simp only [ofMol, List.map_cons, List.map_nil, List.mem_singleton] at hq
      subst hq
      exact absurd hx he
  · rcases h1 with e | ⟨q, hq, -, e⟩
    · omega
    · simp only [ofMol, List.map_cons, List.map_nil, List.mem_singleton] at hq
      rw [e, hq]

/-- **C103, exactly.**  The averages over the particles are right for all distances, in the layout of the
package, if and only if there is just one molecule or the molecules have just one particle. -/
theorem C103_exactly (n p : ℕ) (hn : 0 < n) (hp : 0 < p) : StructStatusOf n p ↔ n = 1 ∨ p = 1 := by
  constructor
  · intro h
    by_contra hc
    rw [not_or] at hc
    have hn2 : 2 ≤ n := by omega
    have hp2 : 2 ≤ p := by omega
    set d : List (Option ℚ) := (List.range (n * p)).map (fun i => if i % n = 0 then some 1 else some 0) with hd
    have hlen : ∀ q ∈ [((1 : ℤ), d)], q.2.length = n * p := by
      intro q hq
      rw [List.mem_singleton] at hq
      subst hq
      simp [hd]
    obtain ⟨r, l, h1, h2, -, h3⟩ := h (some 0) [(1, d)] hlen
    obtain ⟨r', l', h1', h2', -, h3'⟩ := C103_averages_partial n p (some 0) [(1, d)] hp hlen
    obtain rfl : r = r' := Except.ok.inj (h1.symm.trans h1')
    obtain rfl : l = l' := Except.ok.inj (h2.symm.trans h2')
    obtain ⟨s, s1, s2⟩ := h3 0 hn
    obtain ⟨s', s1', s2'⟩ := h3' 0 hn
    have hs : ∀ j < p, s j = 1 := by
      intro j hj
      have hb : j * n + 0 < n * p := by
        rw [Nat.add_zero, Nat.mul_comm n p]
        exact Nat.mul_lt_mul_of_pos_right hj hn
      refine (one_frame_first (s1 j hj) (by norm_num)).1 ⟨1, 0, ?_, rfl, by norm_num⟩
      rw [List.getD_eq_getElem?_getD, hd, List.getElem?_map, List.getElem?_range hb]
      simp
    have hs1' : s' 1 = 2 ^ 32 - 1 := by
      have hb : 0 * p + 1 < n * p := by
        have : 2 * 2 ≤ n * p := Nat.mul_le_mul hn2 hp2
        omega
      refine (one_frame_first (s1' 1 (by omega)) (by norm_num)).2.1 ?_
      rintro ⟨x, y, hx, hy, hxy⟩
      rw [List.getD_eq_getElem?_getD, hd, List.getElem?_map, List.getElem?_range hb] at hx
      have h1n : (0 * p + 1) % n ≠ 0 := by
        rw [Nat.zero_mul, Nat.zero_add, Nat.mod_eq_of_lt (by omega)]
        omega
      simp only [Option.map_some, Option.getD_some, if_neg h1n, Option.some.injEq] at hx hy
      rw [← hx, ← hy] at hxy
      exact absurd hxy (lt_irrefl _)
    have hge : ∀ j ∈ Finset.range p, (s j : ℚ) ≤ s' j := by
      intro j hj
      have hj' := Finset.mem_range.1 hj
      rw [hs j hj']
      exact_mod_cast (one_frame_first (s1' j hj') (by norm_num)).2.2
    have hlt : (∑ j ∈ Finset.range p, (s j : ℚ)) < ∑ j ∈ Finset.range p, (s' j : ℚ) := by
      refine Finset.sum_lt_sum hge ⟨1, Finset.mem_range.2 (by omega), ?_⟩
      rw [hs 1 (by omega), hs1']
      norm_num
    have hpq : (0 : ℚ) < p := by exact_mod_cast hp
    have heq := Option.some.inj (s2.symm.trans s2')
    rw [div_left_inj' hpq.ne'] at heq
    exact absurd heq hlt.ne
  · intro h thr hist hlen
    obtain ⟨r, l, h1, h2, h3, h4⟩ := C103_averages_partial n p thr hist hp hlen
    refine ⟨r, l, h1, h2, h3, fun m hm => ?_⟩
    obtain ⟨s, s1, s2⟩ := h4 m hm
    refine ⟨s, fun j hj => ?_, s2⟩
    have := s1 j hj
    rcases h with rfl | rfl
    · obtain rfl : m = 0 := by omega
      simpa using this
    · obtain rfl : j = 0 := by omega
      simpa using this

/-- Trimers are reported right only alone. -/
example : StructStatusOf 1 3 ∧ ¬ StructStatusOf 2 3 :=
  ⟨(C103_exactly 1 3 (by norm_num) (by norm_num)).2 (Or.inl rfl), fun h =>
    absurd ((C103_exactly 2 3 (by norm_num) (by norm_num)).1 h) (by norm_num)⟩

end Verif.Relax
