import Verif.Names.Lemmas
/-!
# What of a path is read: C56
-/

namespace Verif.Names

open Verif.Text

/-- `name` is `x`, a dot and `e`, with nothing empty and the dot the last one. -/
def Suffixed (name x e : List Char) : Prop := x ≠ [] ∧ e ≠ [] ∧ '.' ∉ e ∧ name = x ++ '.' :: e

/-- **C56, path.**  Only the last part of a path counts, however many slashes (or `/.`) follow it. -/
theorem C56_path (s dir w : List Char) (hw : '/' ∉ w) (h0 : w ≠ []) (h1 : w ≠ ['.']) :
    fromFilename (s ++ ['/']) = fromFilename s ∧ fromFilename (s ++ ['/', '.']) = fromFilename s ∧
    fromFilename (dir ++ '/' :: w) = fromFilename w ∧ fromFilename (dir ++ '/' :: w ++ ['/']) = fromFilename w := by
  have e1 : ∀ s, pathName (s ++ ['/']) = pathName s := by
    intro s
    unfold pathName
    rw [splitOn_append '/' s [] (by simp), List.filter_append]
    simp
  have e2 : pathName (s ++ ['/', '.']) = pathName s := by
    unfold pathName
    rw [splitOn_append '/' s ['.'] (by simp), List.filter_append]
    simp
  have e3 : pathName w = w := by
    unfold pathName
    rw [splitOn_word '/' w hw]
    simp [h0, h1]
  have e4 := pathName_join dir w hw h0 h1
  refine ⟨?_, ?_, ?_, ?_⟩ <;> unfold fromFilename
  · rw [e1]
  · rw [e2]
  · rw [e3, e4]
  · rw [e1, e3, e4]

/-- **C56, suffix.**  The suffix is what follows the last dot; there is none when the dot is the first or the last
character, and then the whole name is read. -/
theorem C56_suffix (name : List Char) :
    (∀ x e, Suffixed name x e → stem name = x) ∧ ((∀ x e, ¬ Suffixed name x e) → stem name = name) := by
  constructor
  · rintro x e ⟨hx, he, hd, rfl⟩
    exact stem_ext x e hx he hd
  · intro h
    unfold stem
    simp only
    split
    next hc =>
      exfalso
      obtain ⟨hdot, he, hlen⟩ := hc
      set e := (name.reverse.takeWhile (fun c => decide (c ≠ '.'))).reverse with hedef
      have happ := List.takeWhile_append_dropWhile (p := fun c : Char => decide (c ≠ '.'))
        (l := name.reverse)
      have hnot : '.' ∉ e := by
        rw [hedef, List.mem_reverse]
        have key : ∀ l : List Char, '.' ∉ l.takeWhile (fun c : Char => decide (c ≠ '.')) := by
          intro l
          induction l with
          | nil => simp
          | cons x l ih =>
            rw [List.takeWhile_cons]
            split
            · rename_i hx
              rw [List.mem_cons, not_or]
              exact ⟨fun h => (of_decide_eq_true hx) h.symm, ih⟩
            · simp
        exact key _
      cases hdw : name.reverse.dropWhile (fun c : Char => decide (c ≠ '.')) with
      | nil =>
        rw [hdw, List.append_nil] at happ
        apply hnot
        rw [hedef, happ, List.reverse_reverse]
        exact hdot
      | cons c rest =>
        have hc : c = '.' := by
          have := List.head_dropWhile_not (fun c : Char => decide (c ≠ '.')) (l := name.reverse) (by rw [hdw]; simp)
          simp only [hdw, List.head_cons, decide_eq_false_iff_not, ne_eq, not_not] at this
          exact this
        rw [hdw, hc] at happ
        have hname : name = rest.reverse ++ '.' :: e := by
          have := congrArg List.reverse happ
          simp only [List.reverse_append, List.reverse_cons, List.reverse_reverse] at this
          rw [← this, hedef]
          simp
        refine h rest.reverse e ⟨?_, he, hnot, hname⟩
        intro h0
        have := congrArg List.length hname
        rw [h0] at this
        simp at this
        omega
    next => rfl

/-- `dump-Trimer-P1.00.gsd` has a suffix, `.gsd` and `Trimer.` have none. -/
example : Suffixed "dump-P1.00.gsd".toList "dump-P1.00".toList "gsd".toList ∧
    stem "dump-P1.00.gsd".toList = "dump-P1.00".toList ∧
    stem ".gsd".toList = ".gsd".toList ∧ stem "Trimer.".toList = "Trimer.".toList := by
  refine ⟨⟨by decide, by decide, by decide, by decide⟩, by decide, by decide, by decide⟩

/-- A trailing slash. -/
example : fromFilename "out/Trimer-P1.00-T0.40.gsd/".toList = fromFilename "Trimer-P1.00-T0.40.gsd".toList :=
  (C56_path [] "out".toList "Trimer-P1.00-T0.40.gsd".toList (by decide) (by decide) (by decide)).2.2.2

end Verif.Names
