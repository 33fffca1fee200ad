import Verif.Relax.Props
/-!
# Exactly what a rejected `set_mol_relax` leaves: C46
-/

namespace Verif.Relax

variable {K : Type} [Field K] [LinearOrder K] [IsStrictOrderedRing K]

/-- **C46, exactly.**  A call rejected at the definition `d`, after the valid ones `pre`, leaves
under every name the last of the definitions `pre` of it, unused, and nothing else.  So the old
relaxations are all still there if and only if they were precisely these. -/
theorem C46_exactly (n : Nat) (old : Dict String (MolRelax K)) (pre post : List (Def K))
    (d : Def K) (hpre : ∀ d' ∈ pre, Valid d') (hd : ¬ Valid d) :
    (setMolRelax n old (pre ++ d :: post)).2 ≠ none ∧
    (∀ name r, Dict.get? (setMolRelax n old (pre ++ d :: post)).1 name = some r ↔
      LastDef n pre name r) ∧
    ((∀ name, Dict.get? (setMolRelax n old (pre ++ d :: post)).1 name = Dict.get? old name) ↔
      ∀ name r, Dict.get? old name = some r ↔ LastDef n pre name r) := by
  have hbad : (setMolRelax n old (pre ++ d :: post)).2 ≠ none := by
    intro h
    exact hd ((setLoop_ok_iff n _ []).1 h d (by simp))
  have hloop : ∀ (pre : List (Def K)) (acc : Dict String (MolRelax K)), (∀ d' ∈ pre, Valid d') →
      (setLoop n (pre ++ d :: post) acc).1 = (setLoop n pre acc).1 := by
    intro pre
    induction pre with
    | nil =>
      intro acc _
      cases hm : makeRelax n d with
      | error e => simp [setLoop, hm]
      | ok p => exact absurd (makeRelax_ok_valid n d p hm) hd
    | cons a pre ih =>
      intro acc hv
      obtain ⟨name, r, _, h2, _⟩ := makeRelax_valid n a (hv a (by simp))
      simp only [List.cons_append, setLoop, h2]
      exact ih _ (fun d' hd' => hv d' (List.mem_cons_of_mem _ hd'))
  have hget : ∀ name r, Dict.get? (setMolRelax n old (pre ++ d :: post)).1 name = some r ↔
      LastDef n pre name r := by
    intro name r
    unfold setMolRelax
    rw [hloop pre [] hpre, setLoop_get n pre [] hpre name r]
    simp [Dict.get?]
  refine ⟨hbad, hget, ⟨fun h name r => ?_, fun h name => ?_⟩⟩
  · rw [← h name]; exact hget name r
  · apply Option.ext
    intro r
    rw [hget name r, h name r]

/-- **C46, what is lost**: an old relaxation under a name that the definitions before the rejected
one do not mention is gone. -/
theorem C46_lost (n : Nat) (old : Dict String (MolRelax K)) (pre post : List (Def K))
    (d : Def K) (hpre : ∀ d' ∈ pre, Valid d') (hd : ¬ Valid d) (name : String)
    (hname : ∀ d' ∈ pre, d'.name ≠ some name) :
    Dict.get? (setMolRelax n old (pre ++ d :: post)).1 name = none := by
  cases hg : Dict.get? (setMolRelax n old (pre ++ d :: post)).1 name with
  | none => rfl
  | some r =>
    obtain ⟨a, d', b, e, h1, _⟩ := ((C46_exactly n old pre post d hpre hd).2.1 name r).1 hg
    exact absurd h1 (hname d' (by rw [e]; simp))

/-- One relaxation, and a definition without a name. -/
example : Dict.get? (setMolRelax (K := ℚ) 1 [("tau", .first (First.new 1 (some 1) .translation))]
    [⟨none, none, false, none, none⟩]).1 "tau" = none :=
  C46_lost 1 _ [] [] ⟨none, none, false, none, none⟩ (by simp) (by simp [Valid]) "tau" (by simp)

/-- A first definition that is valid. -/
example (r : MolRelax ℚ) : Dict.get? (setMolRelax (K := ℚ) 1 []
    [⟨some "a", some (some (some 1)), false, none, none⟩, ⟨none, none, false, none, none⟩]).1 "a" =
      some r ↔ LastDef 1 [⟨some "a", some (some (some 1)), false, none, none⟩] "a" r :=
  (C46_exactly 1 [] [⟨some "a", some (some (some 1)), false, none, none⟩] []
    ⟨none, none, false, none, none⟩ (by
      intro d hd
      simp only [List.mem_singleton] at hd
      subst hd
      exact ⟨⟨_, rfl⟩, ⟨_, rfl, by rintro y ⟨⟩; decide⟩, by simp, by simp⟩) (by simp [Valid])).2.1 "a" r

end Verif.Relax
