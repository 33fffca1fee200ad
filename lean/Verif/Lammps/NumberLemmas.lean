import Verif.Lammps.NumberSpec
import Verif.Lammps.SpaceLemmas
/-!
# Lemmas: whole numbers in text
-/

namespace Verif.Lammps

open Verif.Text

theorem White.space {w : List Char} (h : White w) : ∀ c ∈ w, isSpace c = true := by
  intro c hc
  have := h c hc
  simp only [List.mem_cons, List.not_mem_nil, or_false] at this
  rcases this with rfl | rfl | rfl | rfl | rfl | rfl <;> decide

theorem white_of {w : List Char} (h : ∀ c ∈ w, isSpace c = true) : White w := by
  intro c hc
  have := h c hc
  unfold isSpace at this
  simp only [Bool.or_eq_true, decide_eq_true_eq] at this
  simp only [List.mem_cons, List.not_mem_nil, or_false]
  tauto

theorem of_mem_takeWhile {p : Char → Bool} {c : Char} : ∀ {l : List Char}, c ∈ l.takeWhile p → p c = true
  | [], h => by cases h
  | x :: l, h => by
    rw [List.takeWhile_cons] at h
    split at h
    · rename_i hx
      rcases List.mem_cons.1 h with rfl | h
      · exact hx
      · exact of_mem_takeWhile h
    · cases h

theorem lstrip_split (s : List Char) : ∃ a, White a ∧ s = a ++ lstrip s := by
  refine ⟨s.takeWhile isSpace, white_of fun c hc => of_mem_takeWhile hc, ?_⟩
  unfold lstrip
  exact (List.takeWhile_append_dropWhile).symm

theorem rstrip_split (s : List Char) : ∃ b, White b ∧ s = rstrip s ++ b := by
  refine ⟨(s.reverse.takeWhile isSpace).reverse, white_of fun c hc => ?_, ?_⟩
  · exact of_mem_takeWhile (List.mem_reverse.1 hc)
  · unfold rstrip
    rw [← List.reverse_append, List.takeWhile_append_dropWhile, List.reverse_reverse]

theorem strip_split (s : List Char) : ∃ a b, White a ∧ White b ∧ s = a ++ strip s ++ b := by
  obtain ⟨b, hb, h1⟩ := rstrip_split s
  obtain ⟨a, ha, h2⟩ := lstrip_split (rstrip s)
  refine ⟨a, b, ha, hb, ?_⟩
  unfold strip
  rw [← h2]
  exact h1

/-- White space around a text that has none at its ends. -/
theorem strip_white (a w b : List Char) (ha : White a) (hb : White b) (hne : w ≠ [])
    (hh : ∀ c, w.head? = some c → isSpace c = false) (hl : ∀ c, w.getLast? = some c → isSpace c = false) :
    strip (a ++ w ++ b) = w := by
  rw [strip_append_spaces _ _ hb.space]
  unfold strip
  have hr : rstrip (a ++ w) = a ++ w := by
    apply rstrip_eq_self
    intro c hc
    rw [List.getLast?_append_of_ne_nil _ hne] at hc
    exact hl c hc
  rw [hr, lstrip_append_left _ _ ha.space]
  exact lstrip_eq_self w hh

/-! ## Digits -/

theorem digitVal_eq {c : Char} {d : Nat} (h : digitVal c = some d) : d < 10 ∧ c = Char.ofNat (48 + d) := by
  unfold digitVal at h
  split at h
  · rename_i hc
    obtain rfl := Option.some.inj h
    refine ⟨by omega, ?_⟩
    rw [show 48 + (c.toNat - 48) = c.toNat by omega, Char.ofNat_toNat]
  · cases h

theorem digit_not_space {d : Nat} (h : d < 10) : isSpace (Char.ofNat (48 + d)) = false := by
  interval_cases d <;> decide

theorem digit_ne {d : Nat} (h : d < 10) : Char.ofNat (48 + d) ≠ '-' ∧ Char.ofNat (48 + d) ≠ '+' := by
  interval_cases d <;> decide

/-- The digits that remain. -/
def Rest (s : List Char) (v n : Nat) (d : List Nat) (gs : List (List Nat)) : Prop :=
  (∀ e ∈ d, e < 10) ∧ (∀ g ∈ gs, Digits g) ∧ s = digitText d ++ gs.flatMap (fun g => '_' :: digitText g) ∧
    n = (d ++ gs.flatten).foldl (fun v d => 10 * v + d) v

theorem natGo_iff : ∀ (s : List Char) (v n : Nat),
    (natGo v true s = some n ↔ ∃ d gs, Rest s v n d gs) ∧
    (natGo v false s = some n ↔ ∃ d gs, d ≠ [] ∧ Rest s v n d gs)
  | [], v, n => by
    constructor
    · simp only [natGo, if_true, Option.some.injEq]
      constructor
      · rintro rfl
        exact ⟨[], [], by simp, by simp, rfl, rfl⟩
      · rintro ⟨d, gs, -, -, h, hn⟩
        obtain ⟨h1, h2⟩ := List.append_eq_nil_iff.1 h.symm
        obtain rfl : d = [] := List.map_eq_nil_iff.1 h1
        cases gs with
        | nil => exact hn.symm
        | cons g gs => simp at h2
    · simp only [natGo, Bool.false_eq_true, if_false]
      constructor
      · intro h
        cases h
      · rintro ⟨d, gs, hd, -, -, h, -⟩
        obtain ⟨h1, -⟩ := List.append_eq_nil_iff.1 h.symm
        exact absurd (List.map_eq_nil_iff.1 h1) hd
  | c :: cs, v, n => by
    have ih1 := fun v => (natGo_iff cs v n).1
    have ih2 := fun v => (natGo_iff cs v n).2
    have hdig : ∀ e, digitVal c = some e → ((∃ d gs, Rest cs (v * 10 + e) n d gs) ↔
        ∃ d gs, d ≠ [] ∧ Rest (c :: cs) v n d gs) := by
      intro e he
      obtain ⟨he1, rfl⟩ := digitVal_eq he
      constructor
      · rintro ⟨d, gs, h1, h2, h3, h4⟩
        refine ⟨e :: d, gs, by simp, ?_, h2, ?_, ?_⟩
        · intro x hx
          rcases List.mem_cons.1 hx with rfl | hx
          · exact he1
          · exact h1 x hx
        · rw [h3]; rfl
        · rw [h4, List.cons_append, List.foldl_cons, Nat.mul_comm]
      · rintro ⟨d, gs, hd, h1, h2, h3, h4⟩
        obtain ⟨x, d, rfl⟩ := List.exists_cons_of_ne_nil hd
        rw [digitText, List.map_cons, List.cons_append, List.cons.injEq] at h3
        have hx := h1 x (by simp)
        have : e = x := by
          have := digitVal_digit x hx
          rw [← h3.1, digitVal_digit e he1] at this
          exact Option.some.inj this
        subst this
        refine ⟨d, gs, fun y hy => h1 y (by simp [hy]), h2, h3.2, ?_⟩
        rw [h4, List.cons_append, List.foldl_cons, Nat.mul_comm]
    have hhead : ∀ d gs, d ≠ [] → Rest (c :: cs) v n d gs → ∃ e, digitVal c = some e := by
      rintro d gs hd ⟨h1, -, h3, -⟩
      obtain ⟨x, d, rfl⟩ := List.exists_cons_of_ne_nil hd
      rw [digitText, List.map_cons, List.cons_append, List.cons.injEq] at h3
      rw [h3.1]
      exact ⟨x, digitVal_digit x (h1 x (by simp))⟩
    have hunder : ∀ gs, Rest (c :: cs) v n [] gs → c = '_' ∧ ∃ d gs, d ≠ [] ∧ Rest cs v n d gs := by
      rintro gs ⟨-, h2, h3, h4⟩
      cases gs with
      | nil => simp [digitText] at h3
      | cons g gs =>
        rw [List.flatMap_cons, digitText, List.map_nil, List.nil_append, List.cons_append, List.cons.injEq] at h3
        refine ⟨h3.1, g, gs, (h2 g (by simp)).1, (h2 g (by simp)).2, fun g' hg => h2 g' (by simp [hg]), h3.2, ?_⟩
        rw [h4, List.nil_append, List.flatten_cons]
    have hback : ∀ d gs, d ≠ [] → Rest cs v n d gs → Rest ('_' :: cs) v n [] (d :: gs) := by
      rintro d gs hd ⟨h1, h2, h3, h4⟩
      refine ⟨by simp, ?_, ?_, ?_⟩
      · intro g hg
        rcases List.mem_cons.1 hg with rfl | hg
        · exact ⟨hd, h1⟩
        · exact h2 g hg
      · rw [h3, List.flatMap_cons]; rfl
      · rw [h4, List.nil_append, List.flatten_cons]
    cases hc : digitVal c with
    | some e =>
      have hne : c ≠ '_' := by
        rintro rfl
        rw [show digitVal '_' = none by decide] at hc
        cases hc
      constructor
      · rw [natGo, hc]
        simp only
        rw [ih1, hdig e hc]
        constructor
        · rintro ⟨d, gs, -, h⟩; exact ⟨d, gs, h⟩
        · rintro ⟨d, gs, h⟩
          by_cases hd : d = []
          · subst hd
            exact absurd (hunder gs h).1 hne
          · exact ⟨d, gs, hd, h⟩
      · rw [natGo, hc]
        simp only
        rw [ih1, hdig e hc]
    | none =>
      constructor
      · rw [natGo, hc]
        simp only [Bool.and_true, decide_eq_true_eq]
        by_cases hu : c = '_'
        · subst hu
          rw [if_pos rfl, ih2]
          constructor
          · rintro ⟨d, gs, hd, h⟩
            exact ⟨[], d :: gs, hback d gs hd h⟩
          · rintro ⟨d, gs, h⟩
            by_cases hd : d = []
            · subst hd
              exact (hunder gs h).2
            · obtain ⟨e, he⟩ := hhead d gs hd h
              rw [hc] at he
              cases he
        · rw [if_neg hu]
          constructor
          · intro h; cases h
          · rintro ⟨d, gs, h⟩
            by_cases hd : d = []
            · subst hd
              exact absurd (hunder gs h).1 hu
            · obtain ⟨e, he⟩ := hhead d gs hd h
              rw [hc] at he
              cases he
      · rw [natGo, hc]
        simp only [Bool.and_false, Bool.false_eq_true, if_false]
        constructor
        · intro h; cases h
        · rintro ⟨d, gs, hd, h⟩
          obtain ⟨e, he⟩ := hhead d gs hd h
          rw [hc] at he
          cases he

/-! ## int -/

/-- Groups of digits. -/
def Body (s : List Char) (n : Nat) : Prop :=
  ∃ (d : List Nat) (gs : List (List Nat)), Digits d ∧ (∀ g ∈ gs, Digits g) ∧
    s = digitText d ++ gs.flatMap (fun g => '_' :: digitText g) ∧ n = digitValue (d ++ gs.flatten)

theorem natGo_body (s : List Char) (n : Nat) : natGo 0 false s = some n ↔ Body s n := by
  rw [(natGo_iff s 0 n).2]
  constructor
  · rintro ⟨d, gs, hd, h1, h2, h3, h4⟩
    exact ⟨d, gs, ⟨hd, h1⟩, h2, h3, h4⟩
  · rintro ⟨d, gs, ⟨hd, h1⟩, h2, h3, h4⟩
    exact ⟨d, gs, hd, h1, h2, h3, h4⟩

theorem Body.head {s : List Char} {n : Nat} (h : Body s n) : ∃ c cs, s = c :: cs ∧ isSpace c = false ∧ c ≠ '-' ∧ c ≠ '+' := by
  obtain ⟨d, gs, ⟨hd, h1⟩, -, rfl, -⟩ := h
  obtain ⟨x, d, rfl⟩ := List.exists_cons_of_ne_nil hd
  have hx := h1 x (by simp)
  exact ⟨_, _, rfl, digit_not_space hx, digit_ne hx⟩

theorem digitText_last {d : List Nat} (hd : Digits d) {c : Char} (h : (digitText d).getLast? = some c) :
    isSpace c = false := by
  obtain ⟨x, hx, rfl⟩ := List.mem_map.1 (List.mem_of_getLast? h)
  exact digit_not_space (hd.2 x hx)

theorem digitText_ne {d : List Nat} (hd : Digits d) : digitText d ≠ [] :=
  fun h => hd.1 (List.map_eq_nil_iff.1 h)

theorem groups_last : ∀ (gs : List (List Nat)) (w : List Char), w ≠ [] → (∀ c, w.getLast? = some c → isSpace c = false) →
    (∀ g ∈ gs, Digits g) → ∀ c, (w ++ gs.flatMap (fun g => '_' :: digitText g)).getLast? = some c → isSpace c = false
  | [], w, hne, hw, _, c, h => by
    rw [List.flatMap_nil, List.append_nil] at h
    exact hw c h
  | g :: gs, w, hne, hw, hg, c, h => by
    rw [List.flatMap_cons, ← List.append_assoc] at h
    refine groups_last gs (w ++ '_' :: digitText g) (by simp) ?_ (fun g' hg' => hg g' (by simp [hg'])) c h
    intro c hc
    have hg1 := hg g (by simp)
    rw [List.getLast?_append_of_ne_nil _ (by simp), List.getLast?_cons, ] at hc
    cases hl : (digitText g).getLast? with
    | none => exact absurd (List.getLast?_eq_none_iff.1 hl) (digitText_ne hg1)
    | some x =>
      rw [hl] at hc
      obtain rfl : x = c := Option.some.inj hc
      exact digitText_last hg1 hl

theorem Body.last {s : List Char} {n : Nat} (h : Body s n) : ∀ c, s.getLast? = some c → isSpace c = false := by
  obtain ⟨d, gs, hd, h2, rfl, -⟩ := h
  exact groups_last gs _ (digitText_ne hd) (fun c => digitText_last hd) h2

theorem numeral_iff (s : List Char) (i : Int) : Numeral s i ↔
    ∃ a b sg body n, White a ∧ White b ∧ sg ∈ signs ∧ Body body n ∧ s = a ++ (sg.1 ++ body) ++ b ∧ i = sg.2 * (n : Int) := by
  constructor
  · rintro ⟨a, b, sg, d, gs, ha, hb, hsg, hd, hg, hs, hi⟩
    exact ⟨a, b, sg, _, _, ha, hb, hsg, ⟨d, gs, hd, hg, rfl, rfl⟩, hs, hi⟩
  · rintro ⟨a, b, sg, body, n, ha, hb, hsg, ⟨d, gs, hd, hg, rfl, rfl⟩, hs, hi⟩
    exact ⟨a, b, sg, d, gs, ha, hb, hsg, hd, hg, hs, hi⟩

theorem pyInt_stripped (s : List Char) (i : Int) : pyInt s = some i ↔
    ∃ sg ∈ signs, ∃ body n, Body body n ∧ strip s = sg.1 ++ body ∧ i = sg.2 * (n : Int) := by
  unfold pyInt
  generalize strip s = w
  constructor
  · intro h
    split at h
    · rename_i ds
      obtain ⟨n, hn⟩ : ∃ n, natGo 0 false ds = some n := by
        cases hn : natGo 0 false ds with
        | none => rw [hn] at h; cases h
        | some n => exact ⟨n, rfl⟩
      rw [hn] at h
      obtain rfl := Option.some.inj h
      exact ⟨(['-'], -1), by decide, ds, n, (natGo_body _ _).1 hn, rfl, by simp⟩
    · rename_i ds
      obtain ⟨n, hn⟩ : ∃ n, natGo 0 false ds = some n := by
        cases hn : natGo 0 false ds with
        | none => rw [hn] at h; cases h
        | some n => exact ⟨n, rfl⟩
      rw [hn] at h
      obtain rfl := Option.some.inj h
      exact ⟨(['+'], 1), by decide, ds, n, (natGo_body _ _).1 hn, rfl, by simp⟩
    · obtain ⟨n, hn⟩ : ∃ n, natGo 0 false w = some n := by
        cases hn : natGo 0 false w with
        | none => rw [hn] at h; cases h
        | some n => exact ⟨n, rfl⟩
      rw [hn] at h
      obtain rfl := Option.some.inj h
      exact ⟨([], 1), by decide, w, n, (natGo_body _ _).1 hn, rfl, by simp⟩
  · rintro ⟨sg, hsg, body, n, hb, rfl, rfl⟩
    have hn := (natGo_body _ _).2 hb
    obtain ⟨c, cs, rfl, -, h1, h2⟩ := hb.head
    simp only [signs, List.mem_cons, List.not_mem_nil, or_false] at hsg
    rcases hsg with rfl | rfl | rfl
    · rw [List.nil_append]
      split
      · rename_i heq; exact absurd (List.cons.inj heq).1 h1
      · rename_i heq; exact absurd (List.cons.inj heq).1 h2
      · rw [hn]; simp
    · simp [hn]
    · simp [hn]

theorem pyInt_strip (s : List Char) : pyInt (strip s) = pyInt s := by
  have h : strip (strip s) = strip s := by
    obtain ⟨b, hb, h1⟩ := rstrip_split s
    apply strip_eq_self
    · intro c hc
      unfold strip lstrip at hc
      cases hl : (rstrip s).dropWhile isSpace with
      | nil => rw [hl] at hc; cases hc
      | cons x xs =>
        rw [hl] at hc
        obtain rfl : x = c := Option.some.inj hc
        have := List.head?_dropWhile_not isSpace (rstrip s)
        rw [hl] at this
        simpa using this
    · intro c hc
      obtain ⟨a, ha, h2⟩ := lstrip_split (rstrip s)
      have hlast : (rstrip s).getLast? = some c := by
        rw [h2]
        rw [List.getLast?_append, show (lstrip (rstrip s)).getLast? = some c from hc]
        rfl
      unfold rstrip at hlast
      rw [List.getLast?_reverse] at hlast
      have := List.head?_dropWhile_not isSpace s.reverse
      rw [hlast] at this
      simpa using this
  unfold pyInt
  rw [h]

/-! ## What a frame comes from -/

variable {F : Type}

theorem readline_split : ∀ s : List Char, (readline s).1 ++ (readline s).2 = s
  | [] => rfl
  | c :: cs => by
    rw [readline]
    split
    · rename_i h; subst h; rfl
    · rw [List.cons_append, readline_split cs]

theorem readline_suffix (s : List Char) : (readline s).2 <:+ s := ⟨_, readline_split s⟩

/-- All columns have `n` entries and those of the headings are there. -/
def Shaped (hs : List (List Char)) (n : Nat) (cols : Dict (List Char) (List (Option F))) : Prop :=
  (∀ p ∈ cols, p.2.length = n) ∧ ∀ h ∈ hs, ∃ c, Dict.get? cols h = some c

theorem get?_mem' {cols : Dict (List Char) (List (Option F))} {h : List Char} {c : List (Option F)}
    (hg : Dict.get? cols h = some c) : (h, c) ∈ cols := by
  induction cols with
  | nil => cases hg
  | cons p cols ih =>
    obtain ⟨k, v⟩ := p
    simp only [Dict.get?] at hg
    split at hg
    · rename_i hk
      subst hk
      obtain rfl := Option.some.inj hg
      simp
    · exact List.mem_cons_of_mem _ (ih hg)

theorem set_mem' {cols : Dict (List Char) (List (Option F))} {h : List Char} {c : List (Option F)}
    {p : List Char × List (Option F)} (hp : p ∈ Dict.set cols h c) : p = (h, c) ∨ p ∈ cols := by
  induction cols with
  | nil => simpa [Dict.set] using hp
  | cons q cols ih =>
    obtain ⟨k, v⟩ := q
    simp only [Dict.set] at hp
    split at hp
    · rcases List.mem_cons.1 hp with rfl | hp
      · left; rename_i hk; rw [hk]
      · exact Or.inr (List.mem_cons_of_mem _ hp)
    · rcases List.mem_cons.1 hp with rfl | hp
      · right; simp
      · rcases ih hp with h | h
        · exact Or.inl h
        · exact Or.inr (List.mem_cons_of_mem _ h)

theorem Shaped.set {hs : List (List Char)} {n : Nat} {cols : Dict (List Char) (List (Option F))} (h : Shaped hs n cols)
    (k : List Char) (c : List (Option F)) (hc : c.length = n) : Shaped (k :: hs) n (Dict.set cols k c) := by
  refine ⟨?_, ?_⟩
  · intro p hp
    rcases set_mem' hp with rfl | hp
    · exact hc
    · exact h.1 p hp
  · intro h' hh
    by_cases hk : h' = k
    · subst hk
      exact ⟨c, by rw [Dict.get?_set, if_pos rfl]⟩
    · rw [Dict.get?_set, if_neg (fun h => hk h.symm)]
      exact h.2 h' ((List.mem_cons.1 hh).resolve_left hk)

theorem Shaped.cell {hs : List (List Char)} {n : Nat} {cols : Dict (List Char) (List (Option F))} (h : Shaped hs n cols)
    (k : List Char) (hk : k ∈ hs) (i : Nat) (v : F) : Shaped hs n (setCell cols k i v) := by
  obtain ⟨c, hc⟩ := h.2 k hk
  unfold setCell
  rw [hc]
  have := h.set k (((some c).getD []).set i (some v)) (by
    rw [List.length_set]
    exact h.1 _ (get?_mem' hc))
  exact ⟨this.1, fun x hx => this.2 x (List.mem_cons_of_mem _ hx)⟩

theorem writeRow_shaped (float : List Char → Option F) (n : Nat) (i : Int) (hs : List (List Char)) :
    ∀ (zs : List (List Char × List Char)) (cols out : Dict (List Char) (List (Option F))), (∀ z ∈ zs, z.1 ∈ hs) →
      Shaped hs n cols → writeRow float n i cols zs = .ok out → Shaped hs n out
  | [], cols, out, _, hc, h => by
    obtain rfl := Except.ok.inj h
    exact hc
  | (k, w) :: zs, cols, out, hz, hc, h => by
    rw [writeRow] at h
    split at h
    · cases h
    split at h
    · cases h
    exact writeRow_shaped float n i hs zs _ out (fun z hz' => hz z (by simp [hz'])) (hc.cell k (hz (k, w) (by simp)) _ _) h

theorem readRows_shaped (float : List Char → Option F) (hs : List (List Char)) (idCol n : Nat) :
    ∀ (k : Nat) (src : List Char) (cols out : Dict (List Char) (List (Option F))) (rest : List Char),
      Shaped hs n cols → readRows float hs idCol n k src cols = .ok (out, rest) → Shaped hs n out ∧ rest <:+ src
  | 0, src, cols, out, rest, hc, h => by
    obtain ⟨rfl, rfl⟩ := Prod.mk.inj (Except.ok.inj h)
    exact ⟨hc, List.suffix_refl _⟩
  | k + 1, src, cols, out, rest, hc, h => by
    rw [readRows] at h
    split at h
    · cases h
    split at h
    · cases h
    split at h
    · cases h
    rename_i cols' hw
    have hc' := writeRow_shaped float n _ hs _ _ _ (fun z hz => (List.of_mem_zip hz).1) hc hw
    obtain ⟨h1, h2⟩ := readRows_shaped float hs idCol n k _ _ _ _ hc' h
    exact ⟨h1, h2.trans (readline_suffix src)⟩

theorem empty_shaped (n : Nat) : ∀ (hs done : List (List Char)) (d : Dict (List Char) (List (Option F))),
    Shaped done n d → Shaped (hs ++ done) n (hs.foldl (fun d h => Dict.set d h (List.replicate n none)) d)
  | [], _, _, h => h
  | k :: hs, done, d, h => by
    have := empty_shaped n hs (k :: done) _ (h.set k (List.replicate n none) (by simp))
    rw [List.foldl_cons]
    exact ⟨this.1, fun x hx => this.2 x (by simp only [List.mem_append, List.mem_cons, List.cons_append] at hx ⊢; tauto)⟩

variable [Sub F]

theorem readBound_suffix (float : List Char → Option F) (src rest : List Char) (b : F)
    (h : readBound float src = .ok (b, rest)) : rest <:+ src := by
  unfold readBound at h
  simp only at h
  repeat' split at h
  all_goals first
    | (obtain ⟨-, rfl⟩ := Prod.mk.inj (Except.ok.inj h); exact readline_suffix src)
    | cases h

omit [Sub F] in
theorem readAtoms_inv (float : List Char → Option F) (t n : Int) (box : List F) (src rest : List Char) (f : LFrame F)
    (h : readAtoms float t n box src = .ok (f, rest)) :
    f.timestep = t ∧ rest <:+ src ∧ 0 ≤ n ∧ ∀ p ∈ f.cols, p.2.length = n.toNat := by
  unfold readAtoms at h
  simp only at h
  split at h
  · cases h
  split at h
  · cases h
  split at h
  · cases h
  rename_i hn
  split at h
  · cases h
  rename_i cols rest' hr
  obtain ⟨rfl, rfl⟩ := Prod.mk.inj (Except.ok.inj h)
  have h0 := empty_shaped (F := F) n.toNat ((splitOn ' ' (strip (readline src).1)).drop 2) [] []
    ⟨fun p hp => (by cases hp), fun x hx => (by cases hx)⟩
  rw [List.append_nil] at h0
  obtain ⟨h1, h2⟩ := readRows_shaped float _ _ _ _ _ _ _ _ h0 hr
  exact ⟨rfl, h2.trans (readline_suffix src), by omega, h1.1⟩

theorem readBox_inv (float : List Char → Option F) (t n : Int) (src rest : List Char) (f : LFrame F)
    (h : readBox float t n src = .ok (f, rest)) :
    f.timestep = t ∧ rest <:+ src ∧ 0 ≤ n ∧ ∀ p ∈ f.cols, p.2.length = n.toNat := by
  unfold readBox at h
  split at h
  · cases h
  split at h
  · cases h
  split at h
  · cases h
  split at h
  · cases h
  rename_i h1 _ _ _ h2 _ _ _ h3
  obtain ⟨g1, g2, g3, g4⟩ := readAtoms_inv float _ _ _ _ _ _ h
  exact ⟨g1, ((((g2.trans (readBound_suffix float _ _ _ h3)).trans (readBound_suffix float _ _ _ h2)).trans
    (readBound_suffix float _ _ _ h1))).trans (readline_suffix src), g3, g4⟩

theorem readFrame_inv (float : List Char → Option F) (src rest : List Char) (f : LFrame F)
    (h : readFrame float src = .ok (f, rest)) :
    ∃ (line line' tail : List Char) (n : Nat),
      src = "ITEM: TIMESTEP\n".toList ++ line ++ "ITEM: NUMBER OF ATOMS\n".toList ++ line' ++ tail ∧
      pyInt line = some f.timestep ∧ pyInt line' = some (n : Int) ∧ ∀ p ∈ f.cols, p.2.length = n := by
  unfold readFrame at h
  split at h
  · cases h
  rename_i h1
  split at h
  · cases h
  rename_i t ht
  unfold readNum at h
  split at h
  · cases h
  rename_i h2
  split at h
  · cases h
  rename_i n hn
  obtain ⟨g1, g2, g3, g4⟩ := readBox_inv float _ _ _ _ _ h
  rw [pyInt_strip] at ht hn
  rw [ne_eq, not_not] at h1 h2
  refine ⟨(readline (readline src).2).1, (readline (readline (readline (readline src).2).2).2).1,
    (readline (readline (readline (readline src).2).2).2).2, n.toNat, ?_, g1 ▸ ht, ?_, g4⟩
  · rw [← h1, ← h2]
    simp only [List.append_assoc]
    rw [readline_split, readline_split, readline_split, readline_split]
  · rw [hn, Int.toNat_of_nonneg g3]

theorem readFrame_suffix (float : List Char → Option F) (src rest : List Char) (f : LFrame F)
    (h : readFrame float src = .ok (f, rest)) : rest <:+ src := by
  unfold readFrame at h
  split at h
  · cases h
  split at h
  · cases h
  unfold readNum at h
  split at h
  · cases h
  split at h
  · cases h
  obtain ⟨-, g2, -, -⟩ := readBox_inv float _ _ _ _ _ h
  exact (((g2.trans (readline_suffix _)).trans (readline_suffix _)).trans (readline_suffix _)).trans (readline_suffix _)

theorem parse_mem (float : List Char → Option F) (src : List Char) (f : LFrame F) (hf : f ∈ (parseLammps float src).1) :
    ∃ src', src' <:+ src ∧ ∃ rest, readFrame float src' = .ok (f, rest) := by
  unfold parseLammps at hf
  generalize src.length + 1 = fuel at hf
  induction fuel generalizing src with
  | zero => cases hf
  | succ k ih =>
    rw [parseFuel] at hf
    split at hf
    · cases hf
    cases hr : readFrame float src with
    | error e => rw [hr] at hf; cases hf
    | ok q =>
      obtain ⟨g, rest⟩ := q
      rw [hr] at hf
      simp only at hf
      rcases List.mem_cons.1 hf with rfl | hf
      · exact ⟨src, List.suffix_refl _, rest, hr⟩
      · obtain ⟨src', h1, h2⟩ := ih rest hf
        exact ⟨src', h1.trans (readFrame_suffix float _ _ _ hr), h2⟩

end Verif.Lammps
