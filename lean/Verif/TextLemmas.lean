import Mathlib.Data.List.Basic
import Mathlib.Data.List.Infix
import Mathlib.Tactic.IntervalCases
import Verif.Text
/-!
# Helper lemmas on text
-/

namespace Verif.Text

theorem readline_line (w rest : List Char) (hw : '\n' ∉ w) :
    readline (w ++ '\n' :: rest) = (w ++ ['\n'], rest) := by
  induction w with
  | nil => simp [readline]
  | cons c w ih =>
    rw [List.mem_cons, not_or] at hw
    rw [List.cons_append, readline, if_neg (Ne.symm hw.1), ih hw.2]
    rfl

theorem readline_length (s : List Char) : (readline s).2.length ≤ s.length := by
  induction s with
  | nil => simp [readline]
  | cons c s ih =>
    rw [readline]
    split
    · simp
    · simp; omega

theorem readline_length_lt (s : List Char) (h : s ≠ []) : (readline s).2.length < s.length := by
  cases s with
  | nil => simp at h
  | cons c s =>
    rw [readline]
    split
    · simp
    · have := readline_length s
      simp; omega

theorem readline_eq_nil (s : List Char) : (readline s).1 = [] ↔ s = [] := by
  cases s with
  | nil => simp [readline]
  | cons c s =>
    rw [readline]
    split <;> simp

/-! ## strip -/

theorem rstrip_append_space (w : List Char) (c : Char) (h : isSpace c = true) :
    rstrip (w ++ [c]) = rstrip w := by
  simp [rstrip, h]

theorem strip_append_space (w : List Char) (c : Char) (h : isSpace c = true) :
    strip (w ++ [c]) = strip w := by
  simp [strip, rstrip_append_space w c h]

theorem strip_append_spaces (w sp : List Char) (h : ∀ c ∈ sp, isSpace c = true) :
    strip (w ++ sp) = strip w := by
  induction sp using List.reverseRecOn with
  | nil => simp
  | append_singleton sp c ih =>
    rw [← List.append_assoc, strip_append_space _ _ (h c (by simp)),
      ih (fun d hd => h d (by simp [hd]))]

theorem lstrip_eq_self (w : List Char) (h : ∀ c, w.head? = some c → isSpace c = false) :
    lstrip w = w := by
  cases w with
  | nil => rfl
  | cons c w =>
    have := h c rfl
    simp [lstrip, this]

theorem rstrip_eq_self (w : List Char) (h : ∀ c, w.getLast? = some c → isSpace c = false) :
    rstrip w = w := by
  unfold rstrip
  have : w.reverse.dropWhile isSpace = w.reverse := by
    cases hr : w.reverse with
    | nil => rfl
    | cons c r =>
      have h1 : w.getLast? = some c := by
        rw [← List.head?_reverse, hr]; rfl
      simp [h c h1]
  rw [this, List.reverse_reverse]

theorem strip_eq_self (w : List Char) (h : ∀ c, w.head? = some c → isSpace c = false)
    (h' : ∀ c, w.getLast? = some c → isSpace c = false) : strip w = w := by
  unfold strip
  rw [rstrip_eq_self w h', lstrip_eq_self w h]

theorem strip_of_all (w : List Char) (h : ∀ c ∈ w, isSpace c = false) : strip w = w :=
  strip_eq_self w (fun c hc => h c (List.mem_of_mem_head? hc))
    (fun c hc => h c (List.mem_of_getLast? hc))

theorem pyInt_append_nl (w : List Char) : pyInt (w ++ ['\n']) = pyInt w := by
  unfold pyInt
  rw [strip_append_space _ _ (by decide)]

/-! ## split -/

theorem splitWsGo_word (w acc rest : List Char) (h : ∀ c ∈ w, isSpace c = false) :
    splitWsGo acc (w ++ rest) = splitWsGo (acc ++ w) rest := by
  induction w generalizing acc with
  | nil => simp
  | cons c w ih =>
    rw [List.cons_append, splitWsGo, if_neg (by simp [h c (by simp)]),
      ih _ (fun d hd => h d (by simp [hd]))]
    simp

theorem splitWs_word_space (w rest : List Char) (c : Char) (hne : w ≠ [])
    (h : ∀ c ∈ w, isSpace c = false) (hc : isSpace c = true) :
    splitWs (w ++ c :: rest) = w :: splitWs rest := by
  unfold splitWs
  rw [splitWsGo_word w [] _ h, List.nil_append, splitWsGo, if_pos hc, if_neg hne]

theorem splitOnGo_word (sep : Char) (w acc rest : List Char) (h : sep ∉ w) :
    splitOnGo sep acc (w ++ rest) = splitOnGo sep (acc ++ w) rest := by
  induction w generalizing acc with
  | nil => simp
  | cons c w ih =>
    rw [List.mem_cons, not_or] at h
    rw [List.cons_append, splitOnGo, if_neg (Ne.symm h.1), ih _ h.2]
    simp

theorem splitOn_word_sep (sep : Char) (w rest : List Char) (h : sep ∉ w) :
    splitOn sep (w ++ sep :: rest) = w :: splitOn sep rest := by
  unfold splitOn
  rw [splitOnGo_word sep w [] _ h, List.nil_append, splitOnGo, if_pos rfl]

theorem splitOn_word (sep : Char) (w : List Char) (h : sep ∉ w) : splitOn sep w = [w] := by
  unfold splitOn
  have := splitOnGo_word sep w [] [] h
  rw [List.append_nil] at this
  rw [this, splitOnGo, List.nil_append]

/-! ## substring -/

theorem hasSub_iff (sub s : List Char) : hasSub sub s = true ↔ sub <:+: s := by
  induction s with
  | nil => simp [hasSub]
  | cons c s ih =>
    rw [hasSub, Bool.or_eq_true, ih, List.infix_cons_iff, List.isPrefixOf_iff_prefix]

/-! ## int -/

theorem digitVal_digit (d : Nat) (h : d < 10) : digitVal (Char.ofNat (48 + d)) = some d := by
  interval_cases d <;> decide

end Verif.Text
