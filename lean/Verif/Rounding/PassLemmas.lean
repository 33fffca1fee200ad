import Verif.Relax.Props
import Verif.Rounding.WholeLemmas
import Verif.Rounding.PassModel
import Verif.Rounding.PassSpec
import Verif.Rounding.TurnLemmas
/-!
# Lemmas on relaxation times of molecules in single precision
-/

namespace Verif.Rounding

open Verif.Motion Verif.Relax

variable {sum : List ℝ → ℝ} {N : ℕ}

/-- The lengths frame by frame. -/
def history (n : ℕ) (t : ℕ → ℤ) (y : ℕ → Fin N → ℝ) : List (Int × List (Option ℝ)) :=
  (List.range n).map (fun i => (t (i + 1), List.ofFn (fun m => some (y (i + 1) m))))

theorem history_length (n : ℕ) (t : ℕ → ℤ) (y : ℕ → Fin N → ℝ) : ∀ p ∈ history n t y, p.2.length = N := by
  intro p hp
  obtain ⟨i, -, rfl⟩ := List.mem_map.1 hp
  simp

theorem history_mol (n : ℕ) (t : ℕ → ℤ) (y : ℕ → Fin N → ℝ) (m : Fin N) :
    ofMol (m : ℕ) (history n t y) = (List.range n).map (fun i => (t (i + 1), some (y (i + 1) m))) := by
  unfold ofMol history
  rw [List.map_map]
  apply List.map_congr_left
  intro i _
  simp [List.getD_eq_getElem?_getD]

theorem exceeds_some (x y : ℝ) : Exceeds (some x) (some y) ↔ y < x := by
  unfold Exceeds
  simp

theorem first_time (n : ℕ) (t : ℕ → ℤ) (y : ℕ → Fin N → ℝ) (thr : ℝ) (k : Kind) :
    ∃ l, ((MolRelax.first (First.new N (some thr) k)).run (history n t y)).map MolRelax.getStatus = .ok l ∧
      l.length = N ∧ ∀ m : Fin N, ∃ x, l[(m : ℕ)]? = some x ∧ FirstTime n t (fun i => y i m) thr x := by
  obtain ⟨r, h1, h2, h3⟩ := C41_first_passage N (some thr) k (history n t y) (history_length n t y)
  refine ⟨r.getStatus, ?_, h2, fun m => ?_⟩
  · rw [MolRelax.run_first, h1]
    rfl
  · obtain ⟨x, hx, hl⟩ := h3 m m.2
    refine ⟨x, hx, ?_⟩
    unfold FirstTime
    convert hl using 1
    ext z
    simp only [Set.mem_ofPred_eq, history_mol, List.mem_map, List.mem_range]
    constructor
    · rintro (h | ⟨i, hi1, hi2, hi3, rfl⟩)
      · exact .inl h
      · refine .inr ⟨_, ⟨i - 1, by omega, rfl⟩, ?_, ?_⟩
        · simp only
          rw [Nat.sub_add_cancel hi1, exceeds_some]
          exact hi3
        · simp only
          rw [Nat.sub_add_cancel hi1]
    · rintro (h | ⟨_, ⟨i, hi, rfl⟩, h1, rfl⟩)
      · exact .inl h
      · exact .inr ⟨i + 1, by omega, by omega, (exceeds_some _ _).1 h1, rfl⟩

theorem last_time (n : ℕ) (t : ℕ → ℤ) (y : ℕ → Fin N → ℝ) (thr cut : ℝ) (k : Kind) :
    ∃ l, ((MolRelax.last (Last.new N (some thr) (some cut) k)).run (history n t y)).map MolRelax.getStatus = .ok l ∧
      l.length = N ∧ ∀ m : Fin N, ∃ x, l[(m : ℕ)]? = some x ∧ LastTime n t (fun i => y i m) thr cut x := by
  obtain ⟨r, h1, h2, h3⟩ := C42_last_passage N (some thr) (some cut) k (history n t y) (history_length n t y)
  refine ⟨r.getStatus, ?_, h2, fun m => ?_⟩
  · rw [MolRelax.run_last, h1]
    rfl
  · obtain ⟨x, hx, hl⟩ := h3 m m.2
    refine ⟨x, hx, ?_⟩
    have hget (i : ℕ) (hi : i < n) : (ofMol (m : ℕ) (history n t y))[i]? = some (t (i + 1), some (y (i + 1) m)) := by
      rw [history_mol]
      simp [hi]
    have hlt (i : ℕ) {q} (h : (ofMol (m : ℕ) (history n t y))[i]? = some q) : i < n := by
      have := (List.getElem?_eq_some_iff.1 h).1
      rw [history_mol] at this
      simpa using this
    have hq (i : ℕ) {q} (h : (ofMol (m : ℕ) (history n t y))[i]? = some q) :
        q = (t (i + 1), some (y (i + 1) m)) := by
      rw [hget i (hlt i h)] at h
      exact (Option.some.inj h).symm
    rcases hl with ⟨hno, rfl⟩ | ⟨i, j, ⟨⟨q, hq1, hq2⟩, hbefore⟩, ⟨hj, ⟨q', hj1, hj2⟩, hj3, hj4⟩, hx'⟩
    · left
      refine ⟨?_, rfl⟩
      by_contra hcon
      push Not at hcon
      classical
      have hex : ∃ i, 1 ≤ i ∧ i ≤ n ∧ thr < y i m ∧ cut < y i m := hcon
      obtain ⟨h4, h5, h6, h7⟩ := Nat.find_spec hex
      set i := Nat.find hex with hidef
      refine hno (i - 1) ⟨⟨_, hget (i - 1) (by omega), ?_, ?_⟩, ?_⟩
      · simp only
        rw [Nat.sub_add_cancel h4, exceeds_some]
        exact h6
      · simp only
        rw [Nat.sub_add_cancel h4, exceeds_some]
        exact h7
      · rintro k hk q hkq ⟨e1, e2⟩
        rw [hq k hkq] at e1 e2
        exact Nat.find_min hex (m := k + 1) (by omega)
          ⟨by omega, by omega, (exceeds_some _ _).1 e1, (exceeds_some _ _).1 e2⟩
    · right
      have hin := hlt i hq1
      rw [hq i hq1] at hq2
      rw [hq j hj1] at hj2
      refine ⟨i + 1, j + 1, by omega, by omega, by omega,
        ⟨(exceeds_some _ _).1 hq2.1, (exceeds_some _ _).1 hq2.2⟩, ?_, (exceeds_some _ _).1 hj2, ?_, ?_, ?_⟩
      · rintro k hk1 hk2 ⟨e1, e2⟩
        refine hbefore (k - 1) (by omega) _ (hget (k - 1) (by omega)) ⟨?_, ?_⟩
        · simp only
          rw [Nat.sub_add_cancel hk1, exceeds_some]
          exact e1
        · simp only
          rw [Nat.sub_add_cancel hk1, exceeds_some]
          exact e2
      · intro k hk1 hk2 e
        refine hj3 (k - 1) _ (by omega) (by omega) (hget (k - 1) (by omega)) ?_
        simp only
        rw [Nat.sub_add_cancel (by omega), exceeds_some]
        exact e
      · intro k hk1 hk2 e
        obtain ⟨l, q'', h4, h5, h6, h7⟩ := hj4 (k - 1) _ (by omega) (hget (k - 1) (by omega)) (by
          simp only
          rw [Nat.sub_add_cancel hk1, exceeds_some]
          exact e)
        rw [hq l h6] at h7
        exact ⟨l + 1, by omega, by omega, (exceeds_some _ _).1 h7⟩
      · rw [hj1] at hx'
        have := Option.some.inj hx'
        rw [← this, hq j hj1]

/-- The loop with the lengths computed beforehand. -/
theorem passLoop32_run {α : Type} (step : List V3 → List α → List α → Except PyErr (List V3)) (s : ℕ → List α)
    (d : ℕ → Fin N → V3) (n : ℕ) (t : ℕ → ℤ)
    (hstep : ∀ i < n, step (List.ofFn (d i)) (s i) (s (i + 1)) = .ok (List.ofFn (d (i + 1)))) (r : MolRelax ℝ) :
    passLoop32 sum step (List.ofFn (d 0)) (s 0) r ((List.range n).map (fun i => (t (i + 1), s (i + 1)))) =
      r.run (history n t (fun i m => norm32 sum (d i m))) := by
  have key : ∀ j k, k + j = n → ∀ r : MolRelax ℝ,
      passLoop32 sum step (List.ofFn (d k)) (s k) r ((List.range' k j).map (fun i => (t (i + 1), s (i + 1)))) =
      r.run ((List.range' k j).map (fun i => (t (i + 1),
        List.ofFn (fun m => some (norm32 sum (d (i + 1) m)))))) := by
    intro j
    induction j with
    | zero => intro k _ r; rfl
    | succ j ih =>
      intro k hk r
      rw [List.range'_succ, List.map_cons, List.map_cons, passLoop32, hstep k (by omega)]
      simp only
      rw [MolRelax.run, map_ofFn']
      cases h : r.add (t (k + 1)) (List.ofFn (fun m => some (norm32 sum (d (k + 1) m)))) with
      | error e => rfl
      | ok r' =>
        simp only
        exact ih (k + 1) (by omega) r'
  have := key n 0 (by omega) r
  rw [← List.range_eq_range'] at this
  exact this

/-- Comparing a computed length with a threshold. -/
theorem compare32 (hs : IsSum sum) {v : V3} {len thr h : ℝ} (hd : |length3 v - len| ≤ h) (hthr : 1 / 2 ^ 40 ≤ thr) :
    (thr * (1 + 1 / 2 ^ 20) + h ≤ len → float32.fl thr < norm32 sum v) ∧
    (len ≤ thr * (1 - 1 / 2 ^ 20) - h → norm32 sum v < float32.fl thr) := by
  have t72 : (2 : ℝ) ^ (-72 : ℤ) ≤ 1 / 2 ^ 23 * thr := by
    have h1 : (2 : ℝ) ^ (-72 : ℤ) ≤ 2 ^ (-63 : ℤ) := two_zpow_le (by norm_num)
    refine h1.trans ?_
    rw [show (-63 : ℤ) = -23 + -40 by norm_num, zpow_add₀ (by norm_num)]
    have : (2 : ℝ) ^ (-40 : ℤ) ≤ thr := by
      refine le_trans (le_of_eq ?_) hthr
      norm_num
    have e : (2 : ℝ) ^ (-23 : ℤ) = 1 / 2 ^ 23 := by norm_num
    rw [e]
    exact mul_le_mul_of_nonneg_left this (by norm_num)
  have hd0 : 0 < thr := lt_of_lt_of_le (by norm_num) hthr
  obtain ⟨b1, b2⟩ := abs_le.1 (fl32_dist (d := thr) (by
    refine le_trans ?_ hthr
    have h1 : (2 : ℝ) ^ (-126 : ℤ) ≤ 2 ^ (-40 : ℤ) := two_zpow_le (by norm_num)
    refine h1.trans (le_of_eq ?_)
    norm_num))
  obtain ⟨a1, a2⟩ := abs_le.1 (norm32_error hs v)
  obtain ⟨c1, c2⟩ := abs_le.1 hd
  have hl := length3_nonneg v
  generalize (2 : ℝ) ^ (-72 : ℤ) = t at *
  norm_num at *
  constructor
  · intro h
    nlinarith
  · intro h
    nlinarith

theorem first_congr {n : ℕ} {t : ℕ → ℤ} {y len : ℕ → ℝ} {c thr : ℝ} {x : ℤ} (hx : FirstTime n t y c x)
    (h : ∀ i, 1 ≤ i → i ≤ n → (c < y i ↔ thr < len i)) : FirstTime n t len thr x := by
  unfold FirstTime at hx ⊢
  convert hx using 1
  ext z
  simp only [Set.mem_ofPred_eq]
  constructor
  · rintro (h1 | ⟨i, h1, h2, h3, h4⟩)
    · exact .inl h1
    · exact .inr ⟨i, h1, h2, (h i h1 h2).2 h3, h4⟩
  · rintro (h1 | ⟨i, h1, h2, h3, h4⟩)
    · exact .inl h1
    · exact .inr ⟨i, h1, h2, (h i h1 h2).1 h3, h4⟩

theorem apart_iff {len y c thr h : ℝ} (h0 : 0 ≤ h) (hthr : 0 < thr)
    (hup : thr * (1 + 1 / 2 ^ 20) + h ≤ len → c < y) (hlo : len ≤ thr * (1 - 1 / 2 ^ 20) - h → y < c)
    (hap : len ≤ thr * (1 - 1 / 2 ^ 20) - h ∨ thr * (1 + 1 / 2 ^ 20) + h ≤ len) :
    (c < y ↔ thr < len) ∧ (y < c ↔ len < thr) := by
  rcases hap with h3 | h3
  · have h4 := hlo h3
    have h5 : len < thr := by norm_num at h3; linarith
    exact ⟨⟨fun e => absurd e (not_lt.2 h4.le), fun e => absurd e (not_lt.2 h5.le)⟩, fun _ => h5, fun _ => h4⟩
  · have h4 := hup h3
    have h5 : thr < len := by norm_num at h3; linarith
    exact ⟨⟨fun _ => h5, fun _ => h4⟩, fun e => absurd e (not_lt.2 h4.le), fun e => absurd e (not_lt.2 h5.le)⟩

theorem first_upTo {n : ℕ} {t : ℕ → ℤ} {y len : ℕ → ℝ} {c thr h : ℝ} {x : ℤ} (hx : FirstTime n t y c x)
    (h0 : 0 ≤ h) (hthr : 0 < thr)
    (hup : ∀ i, 1 ≤ i → i ≤ n → thr * (1 + 1 / 2 ^ 20) + h ≤ len i → c < y i)
    (hlo : ∀ i, 1 ≤ i → i ≤ n → len i ≤ thr * (1 - 1 / 2 ^ 20) - h → y i < c) :
    FirstTimeUpTo n t len thr h x := by
  refine ⟨fun a ha => ha.2 ?_, fun b hb => hx.2 ?_, fun hap => first_congr hx fun i h1 h2 =>
    (apart_iff h0 hthr (hup i h1 h2) (hlo i h1 h2) (hap i h1 h2)).1⟩
  · rcases hx.1 with h | ⟨i, h1, h2, h3, h4⟩
    · exact .inl h
    · exact .inr ⟨i, h1, h2, not_le.1 (fun e => absurd h3 (not_lt.2 (hlo i h1 h2 e).le)), h4⟩
  · rcases hb.1 with h | ⟨i, h1, h2, h3, h4⟩
    · exact .inl h
    · exact .inr ⟨i, h1, h2, hup i h1 h2 h3.le, h4⟩

theorem last_congr {n : ℕ} {t : ℕ → ℤ} {y len : ℕ → ℝ} {c c' thr cut : ℝ} {x : ℤ} (hx : LastTime n t y c c' x)
    (h : ∀ i, 1 ≤ i → i ≤ n → (c < y i ↔ thr < len i)) (h' : ∀ i, 1 ≤ i → i ≤ n → (c' < y i ↔ cut < len i))
    (h'' : ∀ i, 1 ≤ i → i ≤ n → (y i < c ↔ len i < thr)) : LastTime n t len thr cut x := by
  rcases hx with ⟨h1, h2⟩ | ⟨i, j, h1, h2, h3, h4, h5, h6, h7, h8, h9⟩
  · exact .inl ⟨fun i a b e => h1 i a b ⟨(h i a b).2 e.1, (h' i a b).2 e.2⟩, h2⟩
  · refine .inr ⟨i, j, h1, h2, h3, ⟨(h i (by omega) h3).1 h4.1, (h' i (by omega) h3).1 h4.2⟩, ?_,
      (h j h1 (by omega)).1 h6, ?_, ?_, h9⟩
    · exact fun k a b e => h5 k a b ⟨(h k a (by omega)).2 e.1, (h' k a (by omega)).2 e.2⟩
    · exact fun k a b e => h7 k a b ((h'' k (by omega) (by omega)).2 e)
    · intro k a b e
      obtain ⟨l, p, q, r⟩ := h8 k a b ((h k a (by omega)).2 e)
      exact ⟨l, p, q, (h'' l (by omega) (by omega)).1 r⟩

/-- What is stored by a first passage, from the errors of the lengths. -/
theorem pass_first (hs : IsSum sum) {α : Type} (step : List V3 → List α → List α → Except PyErr (List V3))
    (s : ℕ → Fin N → α) (d : ℕ → Fin N → V3) (n : ℕ) (t : ℕ → ℤ) (k : Kind) (hd0 : d 0 = fun _ => 0)
    (hstep : ∀ i < n, step (List.ofFn (d i)) (List.ofFn (s i)) (List.ofFn (s (i + 1))) = .ok (List.ofFn (d (i + 1))))
    (len : ℕ → Fin N → ℝ) {h thr : ℝ} (h0 : 0 ≤ h) (hthr : 1 / 2 ^ 40 ≤ thr)
    (hlen : ∀ i ≤ n, ∀ m, |length3 (d i m) - len i m| ≤ h) :
    ∃ l, pass32 sum step (.first (First.new N (some thr) k)) (List.ofFn (s 0))
        ((List.range n).map (fun i => (t (i + 1), List.ofFn (s (i + 1))))) = .ok l ∧
      l.length = N ∧ ∀ m : Fin N, ∃ x, l[(m : ℕ)]? = some x ∧ FirstTimeUpTo n t (fun i => len i m) thr h x := by
  obtain ⟨l, h1, h2, h3⟩ := first_time n t (fun i m => norm32 sum (d i m)) (float32.fl thr) k
  have hthr0 : 0 < thr := lt_of_lt_of_le (by norm_num) hthr
  refine ⟨l, ?_, h2, fun m => ?_⟩
  · unfold pass32
    rw [map_ofFn', ← hd0, passLoop32_run step (fun i => List.ofFn (s i)) d n t hstep]
    exact h1
  · obtain ⟨x, hx1, hx2⟩ := h3 m
    exact ⟨x, hx1, first_upTo hx2 h0 hthr0 (fun i _ hi => (compare32 hs (hlen i hi m) hthr).1)
      (fun i _ hi => (compare32 hs (hlen i hi m) hthr).2)⟩

/-- What is stored by a last passage. -/
theorem pass_last (hs : IsSum sum) {α : Type} (step : List V3 → List α → List α → Except PyErr (List V3))
    (s : ℕ → Fin N → α) (d : ℕ → Fin N → V3) (n : ℕ) (t : ℕ → ℤ) (k : Kind) (hd0 : d 0 = fun _ => 0)
    (hstep : ∀ i < n, step (List.ofFn (d i)) (List.ofFn (s i)) (List.ofFn (s (i + 1))) = .ok (List.ofFn (d (i + 1))))
    (len : ℕ → Fin N → ℝ) {h thr cut : ℝ} (h0 : 0 ≤ h) (hthr : 1 / 2 ^ 40 ≤ thr) (hcut : 1 / 2 ^ 40 ≤ cut)
    (hlen : ∀ i ≤ n, ∀ m, |length3 (d i m) - len i m| ≤ h) :
    ∃ l, pass32 sum step (.last (Last.new N (some thr) (some cut) k)) (List.ofFn (s 0))
        ((List.range n).map (fun i => (t (i + 1), List.ofFn (s (i + 1))))) = .ok l ∧
      l.length = N ∧ ∀ m : Fin N, ∃ x, l[(m : ℕ)]? = some x ∧
        (Apart n (fun i => len i m) thr h → Apart n (fun i => len i m) cut h →
          LastTime n t (fun i => len i m) thr cut x) := by
  obtain ⟨l, h1, h2, h3⟩ := last_time n t (fun i m => norm32 sum (d i m)) (float32.fl thr) (float32.fl cut) k
  have hthr0 : 0 < thr := lt_of_lt_of_le (by norm_num) hthr
  have hcut0 : 0 < cut := lt_of_lt_of_le (by norm_num) hcut
  refine ⟨l, ?_, h2, fun m => ?_⟩
  · unfold pass32
    rw [map_ofFn', ← hd0, passLoop32_run step (fun i => List.ofFn (s i)) d n t hstep]
    exact h1
  · obtain ⟨x, hx1, hx2⟩ := h3 m
    refine ⟨x, hx1, fun a1 a2 => ?_⟩
    have e1 (i : ℕ) (hi : 1 ≤ i) (hi' : i ≤ n) := apart_iff h0 hthr0 (compare32 hs (hlen i hi' m) hthr).1
      (compare32 hs (hlen i hi' m) hthr).2 (a1 i hi hi')
    have e2 (i : ℕ) (hi : 1 ≤ i) (hi' : i ≤ n) := apart_iff h0 hcut0 (compare32 hs (hlen i hi' m) hcut).1
      (compare32 hs (hlen i hi' m) hcut).2 (a2 i hi hi')
    exact last_congr hx2 (fun i a b => (e1 i a b).1) (fun i a b => (e2 i a b).1) (fun i a b => (e1 i a b).2)

end Verif.Rounding
