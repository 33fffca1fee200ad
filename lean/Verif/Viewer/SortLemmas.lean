import Verif.Viewer.SortSpec
import Verif.Viewer.StateLemmas
/-!
# The order of texts and the order of numbers
-/

namespace Verif.Viewer

theorem digit_nonneg (c : Char) : 0 ≤ digit c := by
  unfold digit; exact Nat.cast_nonneg _

theorem digit_lt_ten {c : Char} (h : 48 ≤ c.toNat ∧ c.toNat ≤ 57) : digit c + 1 ≤ 10 := by
  have : c.toNat - 48 ≤ 9 := by omega
  have h2 : ((c.toNat - 48 : Nat) : ℚ) ≤ ((9 : Nat) : ℚ) := Nat.cast_le.2 this
  unfold digit
  have h3 : ((9 : Nat) : ℚ) = 9 := rfl
  linarith

/-- Of two digits the one with the smaller value comes first; with the same value they are the
same. -/
theorem digit_cases {c d : Char} (hc : 48 ≤ c.toNat ∧ c.toNat ≤ 57)
    (hd : 48 ≤ d.toNat ∧ d.toNat ≤ 57) : c < d ∨ c = d ∨ digit d + 1 ≤ digit c := by
  rcases Nat.lt_trichotomy c.toNat d.toNat with h | h | h
  · exact .inl h
  · exact .inr (.inl (Char.ext (UInt32.toNat.inj h)))
  · refine .inr (.inr ?_)
    unfold digit
    have : d.toNat - 48 + 1 ≤ c.toNat - 48 := by omega
    have h2 : ((d.toNat - 48 + 1 : Nat) : ℚ) ≤ ((c.toNat - 48 : Nat) : ℚ) := Nat.cast_le.2 this
    push_cast at h2
    exact h2

theorem fractional_nonneg : ∀ s : Str, 0 ≤ fractional s
  | [] => le_refl _
  | c :: s => by
    have h1 := digit_nonneg c
    have h2 := fractional_nonneg s
    simp only [fractional]
    linarith

theorem fractional_lt_one : ∀ s : Str, Digits s → fractional s < 1
  | [], _ => by simp [fractional]
  | c :: s, h => by
    have h1 := digit_lt_ten (h c (by simp))
    have h2 := fractional_lt_one s (fun d hd => h d (by simp [hd]))
    simp only [fractional]
    linarith

theorem lt_of_fractional : ∀ f g : Str, Digits f → Digits g → fractional f < fractional g → f < g
  | [], [], _, _, h => absurd h (lt_irrefl _)
  | [], d :: g, _, _, _ => List.Lex.nil
  | c :: f, [], _, _, h => absurd h (not_lt.2 (by
      have := fractional_nonneg (c :: f)
      simpa [fractional] using this))
  | c :: f, d :: g, hf, hg, h => by
    have hf' : Digits f := fun x hx => hf x (by simp [hx])
    have hg' : Digits g := fun x hx => hg x (by simp [hx])
    rcases digit_cases (hf c (by simp)) (hg d (by simp)) with hcd | hcd | hcd
    · exact List.Lex.rel hcd
    · subst hcd
      refine List.Lex.cons (lt_of_fractional f g hf' hg' ?_)
      simp only [fractional] at h
      linarith
    · exfalso
      have h1 := fractional_nonneg f
      have h2 := fractional_lt_one g hg'
      simp only [fractional] at h
      linarith

theorem whole_nonneg : ∀ s : Str, 0 ≤ whole s
  | [] => le_refl _
  | c :: s => by
    have h1 := digit_nonneg c
    have h2 := whole_nonneg s
    simp only [whole]
    positivity

theorem whole_lt : ∀ s : Str, Digits s → whole s + 1 ≤ 10 ^ s.length
  | [], _ => by simp [whole]
  | c :: s, h => by
    have h1 := digit_lt_ten (h c (by simp))
    have h2 := whole_lt s (fun d hd => h d (by simp [hd]))
    have h3 : (0 : ℚ) < 10 ^ s.length := by positivity
    simp only [whole, List.length_cons, pow_succ]
    nlinarith

/-- The rest of a decimal behind its whole digits. -/
def Tail (t f : Str) : Prop := t = [] ∧ f = [] ∨ t = '.' :: f

theorem lt_of_tail {t u f g : Str} (ht : Tail t f) (hu : Tail u g) (hf : Digits f) (hg : Digits g)
    (h : fractional f < fractional g) : t < u := by
  rcases hu with ⟨rfl, rfl⟩ | rfl
  · have := fractional_nonneg f
    simp only [fractional] at h
    exact absurd h (not_lt.2 this)
  · rcases ht with ⟨rfl, rfl⟩ | rfl
    · exact List.Lex.nil
    · exact List.Lex.cons (lt_of_fractional f g hf hg h)

theorem lt_of_decimal : ∀ (i j t u f g : Str), i.length = j.length → Digits i → Digits j →
    Tail t f → Tail u g → Digits f → Digits g →
    whole i + fractional f < whole j + fractional g → i ++ t < j ++ u
  | [], [], t, u, f, g, _, _, _, ht, hu, hf, hg, h => by
    simp only [whole, zero_add] at h
    exact lt_of_tail ht hu hf hg h
  | [], _ :: _, _, _, _, _, hl, _, _, _, _, _, _, _ => by simp at hl
  | _ :: _, [], _, _, _, _, hl, _, _, _, _, _, _, _ => by simp at hl
  | c :: i, d :: j, t, u, f, g, hl, hi, hj, ht, hu, hf, hg, h => by
    have hi' : Digits i := fun x hx => hi x (by simp [hx])
    have hj' : Digits j := fun x hx => hj x (by simp [hx])
    have hl' : i.length = j.length := by simpa using hl
    rcases digit_cases (hi c (by simp)) (hj d (by simp)) with hcd | hcd | hcd
    · exact List.Lex.rel hcd
    · subst hcd
      refine List.Lex.cons (lt_of_decimal i j t u f g hl' hi' hj' ht hu hf hg ?_)
      simp only [whole, hl'] at h
      linarith
    · exfalso
      have h1 := fractional_nonneg f
      have h2 := fractional_lt_one g hg
      have h3 := whole_nonneg i
      have h4 := whole_lt j hj'
      have h5 : (0 : ℚ) < 10 ^ j.length := by positivity
      simp only [whole, hl'] at h
      nlinarith

/-- Of two decimals with the same number of digits before the point, the text of the smaller comes
first. -/
theorem Decimal.lt {a b : Str} {p q : ℚ} {n : Nat} (ha : Decimal a p n) (hb : Decimal b q n)
    (h : p < q) : a < b := by
  obtain ⟨i, f, hi, hf, hl, rfl, ha⟩ := ha
  obtain ⟨j, g, hj, hg, hl', rfl, hb⟩ := hb
  have key : ∀ t u, Tail t f → Tail u g → i ++ t < j ++ u := fun t u ht hu =>
    lt_of_decimal i j t u f g (by omega) hi hj ht hu hf hg h
  rcases ha with ⟨rfl, rfl⟩ | rfl <;> rcases hb with ⟨rfl, rfl⟩ | rfl
  · simpa using key [] [] (.inl ⟨rfl, rfl⟩) (.inl ⟨rfl, rfl⟩)
  · simpa using key [] _ (.inl ⟨rfl, rfl⟩) (.inr rfl)
  · simpa using key _ [] (.inr rfl) (.inl ⟨rfl, rfl⟩)
  · exact key _ _ (.inr rfl) (.inr rfl)

/-- The keys are in the order of their texts. -/
theorem sortedKeys_pairwise {ν : Type} (d : Dict Str ν) :
    (sortedKeys d).Pairwise (fun a b => a ≤ b) := by
  have := List.pairwise_mergeSort (le := fun a b : Str => decide (a ≤ b))
    (fun a b c h1 h2 => by
      simp only [decide_eq_true_eq] at h1 h2 ⊢
      exact List.le_trans h1 h2)
    (fun a b => by
      simp only [Bool.or_eq_true, decide_eq_true_eq]
      exact List.le_total a b) (d.map Prod.fst)
  exact this.imp (fun h => by simpa using h)

theorem increasing_of_pairwise {l : List Str} (h : l.Pairwise (fun a b => a ≤ b)) :
    IncreasingInLength l := by
  intro j k a b p q n hjk ha hb hp hq
  by_contra hlt
  have h1 := hq.lt hp (not_le.1 hlt)
  obtain ⟨hj, rfl⟩ := List.getElem?_eq_some_iff.1 ha
  obtain ⟨hk, rfl⟩ := List.getElem?_eq_some_iff.1 hb
  have h2 := List.pairwise_iff_getElem.1 h j k hj hk hjk
  exact h2 h1

end Verif.Viewer
