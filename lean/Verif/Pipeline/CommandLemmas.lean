import Verif.Pipeline.CommandModel
import Verif.Names.MoreLemmas
import Verif.Process.Lemmas
import Verif.Cli.Props
/-!
# Lemmas for C164
-/

namespace Verif.Pipeline

open Verif.Motion Verif.Dynamics Verif.Relax Verif.Gsd Verif.Process Verif.Cache Verif.Names

theorem suffix_named (dir x : List Char) (xs : List (List Char)) (ext : List Char) (hx : x ≠ [])
    (h : ∀ w ∈ x :: xs, Plain w) (he : Extension ext) : suffix (namedPath dir (x :: xs) ext) = '.' :: ext := by
  have hne := dashed_ne_nil x xs hx
  have hname : pathName (namedPath dir (x :: xs) ext) = dashed (x :: xs) ++ '.' :: ext := by
    unfold namedPath
    apply pathName_join
    · simp only [List.mem_append, List.mem_cons, not_or]
      exact ⟨dashed_no_slash _ (fun w hw => (h w hw).2), by decide, he.2.2⟩
    · simp
    · intro h0
      have := congrArg List.length h0
      have h1 : 0 < (dashed (x :: xs)).length := List.length_pos_iff.2 hne
      simp at this
      omega
  have h1 : ((dashed (x :: xs) ++ '.' :: ext).reverse.takeWhile (fun c => decide (c ≠ '.'))).reverse = ext := by
    have : (dashed (x :: xs) ++ '.' :: ext).reverse = ext.reverse ++ '.' :: (dashed (x :: xs)).reverse := by simp
    rw [this, takeWhile_ne_append _ _ (by simpa using he.2.1), List.reverse_reverse]
  unfold suffix
  simp only [hname, h1]
  have hl : 0 < (dashed (x :: xs)).length := List.length_pos_iff.2 hne
  rw [if_pos ⟨by simp, he.1, by simp; omega⟩]

/-- The suffix of a name: what follows its last dot, if there is something before it. -/
theorem suffix_iff (s ext : List Char) (h0 : ext ≠ []) (hd : '.' ∉ ext) :
    suffix s = '.' :: ext ↔ ∃ st, st ≠ [] ∧ pathName s = st ++ '.' :: ext := by
  constructor
  · intro h
    unfold suffix at h
    dsimp only at h
    split at h
    · rename_i hc
      obtain ⟨hdot, hne, hlen⟩ := hc
      have hext := (List.cons.inj h).2
      have hsplit := List.takeWhile_append_dropWhile (p := fun c : Char => decide (c ≠ '.'))
        (l := (pathName s).reverse)
      cases hdw : (pathName s).reverse.dropWhile (fun c : Char => decide (c ≠ '.')) with
      | nil =>
        exfalso
        rw [hdw, List.append_nil] at hsplit
        have hin : '.' ∈ (pathName s).reverse.takeWhile (fun c : Char => decide (c ≠ '.')) := by
          rw [hsplit]
          simpa using hdot
        have key : ∀ l : List Char, '.' ∉ l.takeWhile (fun c : Char => decide (c ≠ '.')) := by
          intro l
          induction l with
          | nil => simp
          | cons x l ih =>
            rw [List.takeWhile_cons]
            split
            · rename_i hx
              rw [List.mem_cons, not_or]
              exact ⟨fun h => (of_decide_eq_true hx) h.symm, ih⟩
            · simp
        exact key _ hin
      | cons c rest =>
        have hc : c = '.' := by
          have key : ∀ (l : List Char) (c : Char) (r : List Char),
              l.dropWhile (fun c : Char => decide (c ≠ '.')) = c :: r → c = '.' := by
            intro l
            induction l with
            | nil => intro c r h; simp at h
            | cons x l ih =>
              intro c r h
              rw [List.dropWhile_cons] at h
              split at h
              · exact ih c r h
              · rename_i hx
                rw [← (List.cons.inj h).1]
                simpa using hx
          exact key _ _ _ hdw
        subst hc
        rw [hdw] at hsplit
        have hname : pathName s = rest.reverse ++ '.' :: ext := by
          have := congrArg List.reverse hsplit
          rw [List.reverse_reverse] at this
          rw [← this, List.reverse_append, hext]
          simp
        refine ⟨rest.reverse, ?_, hname⟩
        intro hnil
        rw [hext, hname, hnil] at hlen
        simp at hlen
    · exact absurd h (by simp)
  · rintro ⟨st, hst, hname⟩
    have h1 : ((st ++ '.' :: ext).reverse.takeWhile (fun c => decide (c ≠ '.'))).reverse = ext := by
      have : (st ++ '.' :: ext).reverse = ext.reverse ++ '.' :: st.reverse := by simp
      rw [this, takeWhile_ne_append _ _ (by simpa using hd), List.reverse_reverse]
    unfold suffix
    simp only [hname, h1]
    have hl : 0 < st.length := List.length_pos_iff.2 hst
    rw [if_pos ⟨by simp, h0, by simp; omega⟩]

/-- Crystals leave temperature and pressure alone. -/
theorem items_keep : ∀ (xs : List (List Char)) (v : Variables), (∀ w ∈ xs, Gives w .crystal w) →
    ∃ v', Variables.items v xs = .ok v' ∧ v'.temperature = v.temperature ∧ v'.pressure = v.pressure := by
  intro xs
  induction xs with
  | nil => intro v _; exact ⟨v, rfl, rfl, rfl⟩
  | cons w xs ih =>
    intro v h
    rw [Variables.items, item_crystal v w (h w List.mem_cons_self)]
    exact ih _ (fun u hu => h u (List.mem_cons_of_mem _ hu))

/-- The name that `SimulationParams.filename` makes. -/
theorem filename_vars (p : Params) (pre : Option (List Char)) (hpre : KnownPrefix pre)
    (hP : 0 ≤ p.pressure) (hT : 0 ≤ p.temperature) (hsg : ∀ sg ∈ p.spaceGroup, SpaceGroupName sg) :
    suffix (p.filename pre) = ".gsd".toList ∧ ∃ v, fromFilename (p.filename pre) = .ok v ∧
      v.temperature = some (fmt2 p.temperature) ∧ v.pressure = some (fmt2 p.pressure) := by
  have hsg' : ∀ sg ∈ p.spaceGroup, Plain sg := fun sg h => (hsg sg h).1
  constructor
  · have hplain : ∀ w ∈ p.molecule.str :: p.pieces, Plain w := by
      intro w hw
      unfold Params.pieces at hw
      simp only [List.cons_append, List.nil_append, List.append_assoc, List.mem_cons,
        List.mem_append] at hw
      rcases hw with rfl | rfl | rfl | hw | hw | hw
      · exact (molClass_plain _).1
      · exact plain_P _ hP _ (Or.inl rfl)
      · exact plain_P _ hT _ (Or.inr rfl)
      · exact (optPieces_crystal _ (Or.inl rfl) _ w hw).2
      · exact (optPieces_crystal _ (Or.inr rfl) _ w hw).2
      · exact hsg' w (by simpa using hw)
    rw [filename_eq]
    rcases hpre with rfl | rfl | rfl | rfl
    · exact suffix_named _ _ _ _ (molClass_plain _).2 hplain gsd_extension
    all_goals
      refine suffix_named _ _ _ _ (by decide) ?_ gsd_extension
      intro w hw
      rcases List.mem_cons.1 hw with rfl | hw
      · constructor <;> decide
      · exact hplain w hw
  · rw [fromFilename_written p pre hpre hP hT hsg', pieces_eq, items_mol]
    apply items_keep
    intro w hw
    rcases List.mem_append.1 hw with hw | hw
    · rcases List.mem_append.1 hw with hw | hw
      · exact (optPieces_crystal _ (Or.inl rfl) _ w hw).1
      · exact (optPieces_crystal _ (Or.inr rfl) _ w hw).1
    · exact ⟨rfl, (hsg w (by simpa using hw)).2⟩

/-- Every row of dynamics that a run leaves has the temperature and pressure of the run. -/
theorem rows_vars {ν : Type} (a : Args) (v : ν) {pairs : List (List ℕ × GFrame PData)}
    {ending : Option PyErr} {file file' : File (Rec ℕ (Dict Quantity Dynamics.Val) (Dict String ℤ) ν)}
    {o : Option (List (Rec ℕ (Dict Quantity Dynamics.Val) (Dict String ℤ) ν))}
    (h : processFile (env a (.ok v)) (some (pairs, ending)) true file = (file', .ok o))
    (hne : rows file "dynamics" = []) :
    ∀ r ∈ rows file' "dynamics", ∃ k d, r = .dyn k d v := by
  obtain ⟨-, -, h1, -, -, -, h2, -⟩ := processFile_ok _ _ _ _ _ _ h
  obtain ⟨-, -, h3, -⟩ := coreRun_known _ (visitsOf (env a (.ok v)) pairs) [] [] (Known.nil _) h1
  intro r hr
  rw [h2] at hr
  split at hr
  · rw [hne] at hr; simp at hr
  · obtain ⟨k, d, v', rfl, hv⟩ := h3 r hr
    obtain rfl : v = v' := by simpa [env] using hv
    exact ⟨k, d, rfl⟩

end Verif.Pipeline
