import Mathlib.Analysis.Complex.Norm
import Mathlib.Tactic.LinearCombination
import Verif.Order.VoronoiSpec
/-!
# Property C113: Voronoi neighbours
-/

namespace Verif.Order

open Verif.Motion

/-! ## the buffer -/

/-- With points that leave no hole of radius `R`, images up to `B > 2 R` from `p` determine the cell
of `p`. -/
theorem onEdge_iff {S E : Set ℂ} {p q x : ℂ} {R B : ℝ} (hES : E ⊆ S)
    (hE : ∀ z ∈ S, dist z p ≤ B → z ∈ E) (hcov : ∀ x : ℂ, ∃ z ∈ S, dist x z ≤ R) (hB : 2 * R < B) :
    (q ∈ S ∧ OnEdge S p q x) ↔ (q ∈ E ∧ OnEdge E p q x) := by
  constructor
  · rintro ⟨hq, h1, h2⟩
    obtain ⟨z, hz, hzR⟩ := hcov x
    have hR : dist x p ≤ R := (h2 z hz).trans hzR
    refine ⟨hE q hq ?_, h1, fun r hr => h2 r (hES hr)⟩
    have := dist_triangle q x p
    rw [dist_comm q x, ← h1] at this
    linarith
  · rintro ⟨hq, h1, h2⟩
    have hR0 : 0 ≤ R := by
      obtain ⟨z, -, hz⟩ := hcov 0
      exact dist_nonneg.trans hz
    have hR : dist x p ≤ R := by
      by_contra hlt
      push Not at hlt
      set d := dist x p with hd
      have hd0 : 0 < d := lt_of_le_of_lt hR0 hlt
      set ρ := min d (B - R) with hρ
      have hρR : R < ρ := lt_min hlt (by linarith)
      have hρd : ρ ≤ d := min_le_left _ _
      have hρB : ρ ≤ B - R := min_le_right _ _
      set y : ℂ := p + ((ρ / d : ℝ) : ℂ) * (x - p) with hy
      have hyp : dist y p = ρ := by
        rw [hy, dist_eq_norm, add_sub_cancel_left, norm_mul, Complex.norm_real, ← dist_eq_norm, ← hd,
          Real.norm_of_nonneg (div_nonneg (hR0.trans hρR.le) hd0.le)]
        field_simp
      have hxy : dist x y = d - ρ := by
        have : x - y = ((1 - ρ / d : ℝ) : ℂ) * (x - p) := by
          rw [hy]; push_cast; ring
        rw [dist_eq_norm, this, norm_mul, Complex.norm_real, ← dist_eq_norm x p, ← hd,
          Real.norm_of_nonneg (by rw [sub_nonneg, div_le_one hd0]; exact hρd)]
        field_simp
      obtain ⟨r, hr, hyr⟩ := hcov y
      have hrp : dist r p ≤ B := by
        have := dist_triangle r y p
        rw [dist_comm r y, hyp] at this
        linarith
      have := h2 r (hE r hr hrp)
      have := dist_triangle x y r
      rw [hxy] at this
      linarith
    refine ⟨hES hq, h1, fun r hr => ?_⟩
    by_contra hlt
    push Not at hlt
    have := dist_triangle r x p
    rw [dist_comm r x] at this
    have := h2 r (hE r hr (by linarith))
    linarith

theorem adjacent_iff {S E : Set ℂ} {p q : ℂ} {R B : ℝ} (hES : E ⊆ S)
    (hE : ∀ z ∈ S, dist z p ≤ B → z ∈ E) (hcov : ∀ x : ℂ, ∃ z ∈ S, dist x z ≤ R) (hB : 2 * R < B) :
    Adjacent S p q ↔ Adjacent E p q := by
  constructor
  · rintro ⟨hne, hq, x, y, hxy, hx, hy⟩
    have h1 := (onEdge_iff hES hE hcov hB).1 ⟨hq, hx⟩
    have h2 := (onEdge_iff hES hE hcov hB).1 ⟨hq, hy⟩
    exact ⟨hne, h1.1, x, y, hxy, h1.2, h2.2⟩
  · rintro ⟨hne, hq, x, y, hxy, hx, hy⟩
    have h1 := (onEdge_iff hES hE hcov hB).2 ⟨hq, hx⟩
    have h2 := (onEdge_iff hES hE hcov hB).2 ⟨hq, hy⟩
    exact ⟨hne, h1.1, x, y, hxy, h1.2, h2.2⟩

/-! ## the property -/

/-- The full property: `create_neigh_ordering(n)` marks the molecules that have `n` Voronoi neighbours in the
periodic system. -/
def MarksPeriodic : Prop :=
  ∀ (vor : Voronoi) (n : Nat) (box : List ℝ) (pos : List V3) (b : Box) (res : List Bool),
    createFreudBox box true = .ok b → CountsWithin b 5 pos (vor b 5 pos) →
    neighOrdering vor n box pos = .ok res →
    ∀ (i : Nat) (p : V3), pos[i]? = some p →
      (res[i]? = some true ↔ {q | Adjacent (periodic b pos) (plane p) q}.encard = n)

/-- **C113**, partial: it does so when there is no hole of radius 2.5, that is when every place is within
some `R < 5 / 2` of a molecule or an image of one. -/
theorem C113_neighbours_partial (vor : Voronoi) (n : Nat) (box : List ℝ) (pos : List V3) (b : Box) {R : ℝ}
    (hbox : createFreudBox box true = .ok b) (hvor : CountsWithin b 5 pos (vor b 5 pos))
    (hR : R < 5 / 2) (hcov : Covers b pos R) :
    ∃ res, neighOrdering vor n box pos = .ok res ∧ res.length = pos.length ∧
      ∀ (i : Nat) (p : V3), pos[i]? = some p →
        (res[i]? = some true ↔ {q | Adjacent (periodic b pos) (plane p) q}.encard = n) := by
  obtain ⟨E, hES, hE, hlen, hc⟩ := hvor
  refine ⟨(vor b 5 pos).map (fun c => decide (c = n)), by simp [neighOrdering, computeVoronoiNeighs, hbox],
    by rw [List.length_map, hlen], ?_⟩
  intro i p hp
  obtain ⟨c, hci, hcard⟩ := hc i p hp
  have hset : {q | Adjacent (periodic b pos) (plane p) q} = {q | Adjacent E (plane p) q} := by
    ext q
    exact adjacent_iff hES (hE p (List.mem_of_getElem? hp)) hcov (by linarith)
  rw [hset, ← hcard, List.getElem?_map, hci]
  simp

/-! ## a square lattice -/

/-- One molecule in a square cell of length `L`. -/
theorem mem_square {L : ℝ} {z : ℂ} : z ∈ periodic ⟨L, L, 0, 0, 0, 0, true⟩ [(0, 0, 0)] ↔
    ∃ m n : ℤ, z = ⟨m * L, n * L⟩ := by
  simp only [periodic, Set.mem_setOf_eq, List.mem_singleton, exists_eq_left]
  have : ∀ m n : ℤ, plane (0, 0, 0) + m * (⟨L, 0⟩ : ℂ) + n * (⟨0 * L, L⟩ : ℂ) = ⟨m * L, n * L⟩ := by
    intro m n
    apply Complex.ext <;> simp [plane]
  simp only [this]

theorem dist_le_iff {a b c d : ℂ} : dist a b ≤ dist c d ↔
    (a.re - b.re) ^ 2 + (a.im - b.im) ^ 2 ≤ (c.re - d.re) ^ 2 + (c.im - d.im) ^ 2 := by
  rw [Complex.dist_eq_re_im, Complex.dist_eq_re_im]
  exact Real.sqrt_le_sqrt_iff (by positivity)

theorem dist_eq_iff {a b c d : ℂ} : dist a b = dist c d ↔
    (a.re - b.re) ^ 2 + (a.im - b.im) ^ 2 = (c.re - d.re) ^ 2 + (c.im - d.im) ^ 2 := by
  rw [le_antisymm_iff, dist_le_iff, dist_le_iff, ← le_antisymm_iff]

/-- The neighbours of the molecule are the four nearest images. -/
theorem square_adjacent {L : ℝ} (hL : 0 < L) :
    {q | Adjacent (periodic ⟨L, L, 0, 0, 0, 0, true⟩ [(0, 0, 0)]) (plane (0, 0, 0)) q} =
      {⟨L, 0⟩, ⟨-L, 0⟩, ⟨0, L⟩, ⟨0, -L⟩} := by
  have hL2 : 0 < L ^ 2 := by positivity
  have hp : plane (0, 0, 0) = ⟨0, 0⟩ := rfl
  rw [hp]
  have int_le : ∀ k : ℤ, (k : ℝ) ≤ (k : ℝ) ^ 2 ∧ -(k : ℝ) ≤ (k : ℝ) ^ 2 := by
    intro k
    constructor
    · exact_mod_cast Int.le_self_sq k
    · have := Int.le_self_sq (-k)
      rw [neg_sq] at this
      exact_mod_cast this
  -- a point nearest to the origin, in units of `L / 2`
  have near : ∀ x : ℂ, (∀ r ∈ periodic ⟨L, L, 0, 0, 0, 0, true⟩ [(0, 0, 0)],
      dist x ⟨0, 0⟩ ≤ dist x r) ↔ ∀ m n : ℤ, 2 * (x.re / L) * m + 2 * (x.im / L) * n ≤ m ^ 2 + n ^ 2 := by
    intro x
    have step : ∀ m n : ℤ, dist x ⟨0, 0⟩ ≤ dist x ⟨m * L, n * L⟩ ↔
        2 * (x.re / L) * m + 2 * (x.im / L) * n ≤ m ^ 2 + n ^ 2 := by
      intro m n
      rw [dist_le_iff]
      have e : 2 * (x.re / L) * m + 2 * (x.im / L) * n = (2 * x.re * m * L + 2 * x.im * n * L) / L ^ 2 := by
        field_simp
      rw [e, div_le_iff₀ hL2]
      constructor <;> intro h <;> nlinarith
    constructor
    · intro h m n
      exact (step m n).1 (h _ (mem_square.2 ⟨m, n, rfl⟩))
    · intro h r hr
      obtain ⟨m, n, rfl⟩ := mem_square.1 hr
      exact (step m n).2 (h m n)
  have same : ∀ (x : ℂ) (m n : ℤ), dist x ⟨0, 0⟩ = dist x ⟨m * L, n * L⟩ ↔
      2 * (x.re / L) * m + 2 * (x.im / L) * n = m ^ 2 + n ^ 2 := by
    intro x m n
    rw [dist_eq_iff]
    have e : 2 * (x.re / L) * m + 2 * (x.im / L) * n = (2 * x.re * m * L + 2 * x.im * n * L) / L ^ 2 := by
      field_simp
    rw [e, div_eq_iff hL2.ne']
    constructor <;> intro h <;> linarith
  have hscale : ∀ x y : ℂ, 2 * (x.re / L) = 2 * (y.re / L) → 2 * (x.im / L) = 2 * (y.im / L) → x = y := by
    intro x y h1 h2
    field_simp at h1 h2
    exact Complex.ext h1 h2
  ext q
  simp only [Set.mem_setOf_eq, Set.mem_insert_iff, Set.mem_singleton_iff]
  constructor
  · rintro ⟨hne, hq, x, y, hxy, hx, hy⟩
    obtain ⟨m, n, rfl⟩ := mem_square.1 hq
    -- what is known of a point on the edge
    have key : ∀ x : ℂ, OnEdge (periodic ⟨L, L, 0, 0, 0, 0, true⟩ [(0, 0, 0)]) ⟨0, 0⟩ ⟨m * L, n * L⟩ x →
        (m ≠ 0 → 2 * (x.re / L) = m ∧ (m = 1 ∨ m = -1)) ∧ (n ≠ 0 → 2 * (x.im / L) = n ∧ (n = 1 ∨ n = -1)) := by
      intro x hx
      have h1 := (same x m n).1 hx.1
      have h2 := (near x).1 hx.2
      set a := 2 * (x.re / L) with ha
      set b := 2 * (x.im / L) with hb
      have a1 : a ≤ 1 := by simpa using h2 1 0
      have a2 : -a ≤ 1 := by simpa using h2 (-1) 0
      have b1 : b ≤ 1 := by simpa using h2 0 1
      have b2 : -b ≤ 1 := by simpa using h2 0 (-1)
      have bound : ∀ (a : ℝ) (k : ℤ), a ≤ 1 → -a ≤ 1 → a * k ≤ (k : ℝ) ^ 2 := by
        intro a k h1 h2
        rcases le_total 0 (k : ℝ) with hk | hk
        · have := (int_le k).1
          nlinarith
        · have := (int_le k).2
          nlinarith
      have c1 := bound a m a1 a2
      have c2 := bound b n b1 b2
      have one : ∀ (a : ℝ) (k : ℤ), a ≤ 1 → -a ≤ 1 → a * k = (k : ℝ) ^ 2 → k ≠ 0 →
          a = k ∧ (k = 1 ∨ k = -1) := by
        intro a k h1 h2 h3 hk
        have hk' : (k : ℝ) ≠ 0 := by exact_mod_cast hk
        have hak : a = k := by
          have : (a - k) * k = 0 := by linear_combination h3
          rcases mul_eq_zero.1 this with h | h
          · linarith
          · exact absurd h hk'
        rw [hak] at h1 h2
        have h1' : k ≤ 1 := by exact_mod_cast h1
        have h2' : -k ≤ 1 := by exact_mod_cast h2
        exact ⟨hak, by omega⟩
      exact ⟨one a m a1 a2 (by linarith), one b n b1 b2 (by linarith)⟩
    obtain ⟨kx1, kx2⟩ := key x hx
    obtain ⟨ky1, ky2⟩ := key y hy
    by_cases hm : m = 0
    · subst hm
      by_cases hn : n = 0
      · subst hn
        exact absurd (by simp) hne
      · rcases (kx2 hn).2 with rfl | rfl
        · right; right; left; simp
        · right; right; right; simp
    · by_cases hn : n = 0
      · subst hn
        rcases (kx1 hm).2 with rfl | rfl
        · left; simp
        · right; left; simp
      · exact absurd (hscale x y ((kx1 hm).1.trans (ky1 hm).1.symm) ((kx2 hn).1.trans (ky2 hn).1.symm)) hxy
  · have main : ∀ s t : ℤ, (s = 1 ∧ t = 0) ∨ (s = -1 ∧ t = 0) ∨ (s = 0 ∧ t = 1) ∨ (s = 0 ∧ t = -1) →
        Adjacent (periodic ⟨L, L, 0, 0, 0, 0, true⟩ [(0, 0, 0)]) ⟨0, 0⟩ ⟨s * L, t * L⟩ := by
      intro s t hst
      have hs : (s : ℝ) ^ 2 + (t : ℝ) ^ 2 = 1 ∧ (s : ℝ) * t = 0 := by
        rcases hst with ⟨rfl, rfl⟩ | ⟨rfl, rfl⟩ | ⟨rfl, rfl⟩ | ⟨rfl, rfl⟩ <;> simp
      have half : ∀ a : ℝ, 2 * (a * L / 2 / L) = a := by intro a; field_simp
      refine ⟨?_, mem_square.2 ⟨s, t, rfl⟩, ⟨s * L / 2, t * L / 2⟩, ⟨(s + t / 2) * L / 2, (t + s / 2) * L / 2⟩,
        ?_, ⟨(same _ s t).2 ?_, (near _).2 ?_⟩, ⟨(same _ s t).2 ?_, (near _).2 ?_⟩⟩
      · intro h
        have h1 := congrArg Complex.re h
        have h2 := congrArg Complex.im h
        simp only at h1 h2
        rcases hst with ⟨rfl, rfl⟩ | ⟨rfl, rfl⟩ | ⟨rfl, rfl⟩ | ⟨rfl, rfl⟩ <;> simp at h1 h2 <;> linarith
      · intro h
        have h1 := congrArg Complex.re h
        have h2 := congrArg Complex.im h
        simp only at h1 h2
        rcases hst with ⟨rfl, rfl⟩ | ⟨rfl, rfl⟩ | ⟨rfl, rfl⟩ | ⟨rfl, rfl⟩ <;> push_cast at h1 h2 <;> linarith
      · simp only [half]; ring
      · intro m n
        simp only [half]
        obtain ⟨m1, m2⟩ := int_le m
        obtain ⟨n1, n2⟩ := int_le n
        have := sq_nonneg (m : ℝ)
        have := sq_nonneg (n : ℝ)
        rcases hst with ⟨rfl, rfl⟩ | ⟨rfl, rfl⟩ | ⟨rfl, rfl⟩ | ⟨rfl, rfl⟩ <;> push_cast <;> linarith
      · simp only [half]; linear_combination hs.2
      · intro m n
        simp only [half]
        obtain ⟨m1, m2⟩ := int_le m
        obtain ⟨n1, n2⟩ := int_le n
        have := sq_nonneg (m : ℝ)
        have := sq_nonneg (n : ℝ)
        rcases hst with ⟨rfl, rfl⟩ | ⟨rfl, rfl⟩ | ⟨rfl, rfl⟩ | ⟨rfl, rfl⟩ <;> push_cast <;> linarith
    rintro (rfl | rfl | rfl | rfl)
    · simpa using main 1 0 (by simp)
    · simpa using main (-1) 0 (by simp)
    · simpa using main 0 1 (by simp)
    · simpa using main 0 (-1) (by simp)

/-- So there are four. -/
theorem square_card {L : ℝ} (hL : 0 < L) :
    {q | Adjacent (periodic ⟨L, L, 0, 0, 0, 0, true⟩ [(0, 0, 0)]) (plane (0, 0, 0)) q}.encard = 4 := by
  rw [square_adjacent hL]
  have h1 : (⟨0, L⟩ : ℂ) ∉ ({⟨0, -L⟩} : Set ℂ) := by
    simp only [Set.mem_singleton_iff, Complex.ext_iff, not_and]; intro _; linarith
  have h2 : (⟨-L, 0⟩ : ℂ) ∉ ({⟨0, L⟩, ⟨0, -L⟩} : Set ℂ) := by
    simp only [Set.mem_insert_iff, Set.mem_singleton_iff, Complex.ext_iff]
    rintro (⟨h, -⟩ | ⟨h, -⟩) <;> linarith
  have h3 : (⟨L, 0⟩ : ℂ) ∉ ({⟨-L, 0⟩, ⟨0, L⟩, ⟨0, -L⟩} : Set ℂ) := by
    simp only [Set.mem_insert_iff, Set.mem_singleton_iff, Complex.ext_iff]
    rintro (⟨h, -⟩ | ⟨h, -⟩ | ⟨h, -⟩) <;> linarith
  rw [Set.encard_insert_of_notMem h3, Set.encard_insert_of_notMem h2, Set.encard_insert_of_notMem h1,
    Set.encard_singleton]
  norm_num

/-- The hypotheses of `C113_neighbours_partial`: a molecule in a cell of length 2, with four neighbours. -/
example : createFreudBox [2, 2, 1] true = .ok ⟨2, 2, 0, 0, 0, 0, true⟩ ∧
    CountsWithin ⟨2, 2, 0, 0, 0, 0, true⟩ 5 [(0, 0, 0)] [4] ∧
    Covers ⟨2, 2, 0, 0, 0, 0, true⟩ [(0, 0, 0)] 2 ∧ (2 : ℝ) < 5 / 2 := by
  refine ⟨rfl, ⟨periodic _ _, subset_rfl, fun _ _ z hz _ => hz, rfl, ?_⟩, ?_, by norm_num⟩
  · intro i p hp
    obtain ⟨rfl, rfl⟩ : i = 0 ∧ p = (0, 0, 0) := by
      rcases i with _ | i
      · simpa [eq_comm] using hp
      · simp at hp
    exact ⟨4, rfl, by rw [square_card (by norm_num)]; rfl⟩
  · intro x
    refine ⟨_, mem_square.2 ⟨round (x.re / 2), round (x.im / 2), rfl⟩, ?_⟩
    have h1 := abs_sub_round (x.re / 2)
    have h2 := abs_sub_round (x.im / 2)
    rw [abs_le] at h1 h2
    rw [Complex.dist_eq_re_im, Real.sqrt_le_left (by norm_num)]
    simp only
    have h3 : (x.re - round (x.re / 2) * 2) ^ 2 ≤ 1 := by nlinarith
    have h4 : (x.im - round (x.im / 2) * 2) ^ 2 ≤ 1 := by nlinarith
    linarith

/-- C113 in full is false: a molecule alone in a cell of length 12 has its four nearest images as
neighbours, but they are beyond the buffer, and it is marked by `create_neigh_ordering(0)`. -/
theorem C113_neighbours_refuted : ¬ MarksPeriodic := by
  intro h
  have hE : ∀ p ∈ [((0, 0, 0) : V3)], ∀ z ∈ periodic ⟨12, 12, 0, 0, 0, 0, true⟩ [(0, 0, 0)],
      dist z (plane p) ≤ 5 → z ∈ ({⟨0, 0⟩} : Set ℂ) := by
    intro p hp z hz hd
    rw [List.mem_singleton] at hp
    subst hp
    obtain ⟨m, n, rfl⟩ := mem_square.1 hz
    rw [Complex.dist_eq_re_im, Real.sqrt_le_left (by norm_num)] at hd
    simp only [plane, sub_zero] at hd
    have hm : m = 0 := by
      by_contra hm
      have : (1 : ℝ) ≤ (m : ℝ) ^ 2 := by
        exact_mod_cast Int.one_le_abs (by positivity : m ^ 2 ≠ 0) |>.trans (by rw [abs_of_nonneg (sq_nonneg m)])
      nlinarith [sq_nonneg ((n : ℝ) * 12)]
    have hn : n = 0 := by
      by_contra hn
      have : (1 : ℝ) ≤ (n : ℝ) ^ 2 := by
        exact_mod_cast Int.one_le_abs (by positivity : n ^ 2 ≠ 0) |>.trans (by rw [abs_of_nonneg (sq_nonneg n)])
      nlinarith [sq_nonneg ((m : ℝ) * 12)]
    subst hm hn
    simp
  have hc : CountsWithin ⟨12, 12, 0, 0, 0, 0, true⟩ 5 [(0, 0, 0)] [0] := by
    refine ⟨{⟨0, 0⟩}, ?_, hE, rfl, ?_⟩
    · rintro z rfl
      exact mem_square.2 ⟨0, 0, by simp⟩
    · intro i p hp
      obtain ⟨rfl, rfl⟩ : i = 0 ∧ p = (0, 0, 0) := by
        rcases i with _ | i
        · simpa [eq_comm] using hp
        · simp at hp
      refine ⟨0, rfl, ?_⟩
      rw [eq_comm, Nat.cast_zero, Set.encard_eq_zero]
      ext q
      simp only [Set.mem_setOf_eq, Set.mem_empty_iff_false, iff_false]
      rintro ⟨h1, h2, -⟩
      exact h1 (Set.mem_singleton_iff.1 h2).symm
  have := (h (fun _ _ _ => [0]) 0 [12, 12, 1] [(0, 0, 0)] ⟨12, 12, 0, 0, 0, 0, true⟩ [true] rfl hc rfl 0
    (0, 0, 0) rfl).1 rfl
  rw [square_card (by norm_num)] at this
  norm_num at this

/-- **C113**: a cell given by fewer than three numbers is a ValueError, whatever freud does. -/
theorem C113_bad_box (vor : Voronoi) (n : ℕ) (box : List ℝ) (h : box.length < 3) (position : List V3) :
    neighOrdering vor n box position = .error .valueError := by
  match box, h with
  | [], _ => rfl
  | [_], _ => rfl
  | [_, _], _ => rfl

example : ([4, 4] : List ℝ).length < 3 := by simp

end Verif.Order
