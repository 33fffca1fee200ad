import Verif.Names.HeapSpec
import Verif.Names.MoreLemmas
/-!
# Lemmas for C170
-/

namespace Verif.Names

/-! ## The other parameters stay as they are -/

theorem hexec_objs (j : Nat) (s : HStmt) : ∀ (m : Mem), j < m.objs.length → s.Leaves j →
    (hexec s m).1.objs[j]? = m.objs[j]? ∧ m.objs.length ≤ (hexec s m).1.objs.length := by
  induction s with
  | skip => intro m _ _; exact ⟨rfl, le_rfl⟩
  | raise e => intro m _ _; exact ⟨rfl, le_rfl⟩
  | seq a b iha ihb =>
    intro m hj hs
    obtain ⟨h1, h2⟩ := iha m hj hs.1
    rw [hexec]
    split
    · rename_i m' hm
      rw [hm] at h1 h2
      obtain ⟨h3, h4⟩ := ihb m' (lt_of_lt_of_le hj h2) hs.2
      exact ⟨h3.trans h1, h2.trans h4⟩
    · rename_i m' e hm
      rw [hm] at h1 h2
      exact ⟨h1, h2⟩
  | attempt a b iha ihb =>
    intro m hj hs
    obtain ⟨h1, h2⟩ := iha m hj hs.1
    rw [hexec]
    split
    · rename_i m' hm
      rw [hm] at h1 h2
      exact ⟨h1, h2⟩
    · rename_i m' e hm
      rw [hm] at h1 h2
      obtain ⟨h3, h4⟩ := ihb m' (lt_of_lt_of_le hj h2) hs.2
      exact ⟨h3.trans h1, h2.trans h4⟩
  | construct kw =>
    intro m hj _
    rw [hexec]
    split
    · exact ⟨List.getElem?_append_left hj, by simp⟩
    · exact ⟨rfl, le_rfl⟩
  | assign i k v =>
    intro m hj hs
    rw [hexec]
    split
    · exact ⟨rfl, le_rfl⟩
    · exact ⟨List.getElem?_set_ne hs, by simp⟩
  | newMol i attrs =>
    intro m hj hs
    rw [hexec]
    split
    · exact ⟨rfl, le_rfl⟩
    · exact ⟨List.getElem?_set_ne hs, by simp⟩
  | change i k v =>
    intro m hj hs
    rw [hexec]
    split
    · exact ⟨rfl, le_rfl⟩
    · split <;> exact ⟨rfl, le_rfl⟩
  | context i kw body ih =>
    intro m hj hs
    rw [hexec]
    split
    · exact ⟨rfl, le_rfl⟩
    · rename_i d hd
      split
      · exact ⟨List.getElem?_set_ne hs.1, by simp⟩
      · rename_i d1 h1
        obtain ⟨h3, h4⟩ := ih { m with objs := m.objs.set i d1 } (by simpa using hj) hs.2
        rw [List.getElem?_set_ne hs.1] at h3
        rw [List.length_set] at h4
        split
        · rename_i m2 e hm
          rw [hm] at h3 h4
          exact ⟨h3, h4⟩
        · rename_i m2 hm
          rw [hm] at h3 h4
          refine ⟨?_, by simpa using h4⟩
          have hne : i ≠ j := hs.1
          simpa [List.getElem?_modify, hne] using h3

theorem hexec_length (s : HStmt) : ∀ (m : Mem), m.objs.length ≤ (hexec s m).1.objs.length := by
  induction s with
  | skip => intro m; exact le_rfl
  | raise e => intro m; exact le_rfl
  | seq a b iha ihb =>
    intro m
    have h1 := iha m
    rw [hexec]
    split
    · rename_i m' hm
      rw [hm] at h1
      exact h1.trans (ihb m')
    · rename_i m' e hm
      rw [hm] at h1
      exact h1
  | attempt a b iha ihb =>
    intro m
    have h1 := iha m
    rw [hexec]
    split
    · rename_i m' hm
      rw [hm] at h1
      exact h1
    · rename_i m' e hm
      rw [hm] at h1
      exact h1.trans (ihb m')
  | construct kw => intro m; rw [hexec]; split <;> simp
  | assign i k v => intro m; rw [hexec]; split <;> simp
  | newMol i attrs => intro m; rw [hexec]; split <;> simp
  | change i k v =>
    intro m
    rw [hexec]
    split
    · exact le_rfl
    · split <;> exact le_rfl
  | context i kw body ih =>
    intro m
    rw [hexec]
    split
    · exact le_rfl
    · split
      · simp
      · rename_i d1 h1
        have h2 := ih { m with objs := m.objs.set i d1 }
        rw [List.length_set] at h2
        split
        · rename_i m2 e hm
          rw [hm] at h2
          exact h2
        · rename_i m2 hm
          rw [hm] at h2
          simpa using h2

/-! ## Molecules that are not changed -/

theorem hexec_mols (a : Nat) (x : Attrs) (s : HStmt) : ∀ (m : Mem), s.OnlyAssigns →
    m.mols[a]? = some x → (hexec s m).1.mols[a]? = some x := by
  induction s with
  | skip => intro m _ h; exact h
  | raise e => intro m _ h; exact h
  | seq s t ihs iht =>
    intro m hs h
    have h1 := ihs m hs.1 h
    rw [hexec]
    split
    · rename_i m' hm
      rw [hm] at h1
      exact iht m' hs.2 h1
    · rename_i m' e hm
      rw [hm] at h1
      exact h1
  | attempt s t ihs iht =>
    intro m hs h
    have h1 := ihs m hs.1 h
    rw [hexec]
    split
    · rename_i m' hm
      rw [hm] at h1
      exact h1
    · rename_i m' e hm
      rw [hm] at h1
      exact iht m' hs.2 h1
  | construct kw => intro m _ h; rw [hexec]; split <;> exact h
  | assign i k v => intro m _ h; rw [hexec]; split <;> exact h
  | newMol i attrs =>
    intro m _ h
    rw [hexec]
    split
    · exact h
    · have hlt : a < m.mols.length := (List.getElem?_eq_some_iff.1 h).1
      exact (List.getElem?_append_left hlt).trans h
  | change i k v => intro m hs; exact absurd hs (by simp [HStmt.OnlyAssigns])
  | context i kw body ih =>
    intro m hs h
    rw [hexec]
    split
    · exact h
    · split
      · exact h
      · rename_i d1 h1
        have h2 := ih { m with objs := m.objs.set i d1 } hs h
        split
        · rename_i m2 e hm
          rw [hm] at h2
          exact h2
        · rename_i m2 hm
          rw [hm] at h2
          exact h2

/-! ## Attributes that do not refer to a molecule -/

/-- No attribute is the object at place `a`. -/
def Free (a : Nat) (d : Attrs) : Prop := ∀ p ∈ d, p.2 ≠ Val.obj a

theorem free_set {a : Nat} {v : Val} (hv : v ≠ .obj a) (k : String) : ∀ (d : Attrs), Free a d →
    Free a (Dict.set d k v) := by
  intro d
  induction d with
  | nil => intro _ p hp; simp only [Dict.set, List.mem_singleton] at hp; subst hp; exact hv
  | cons q d ih =>
    obtain ⟨k', v'⟩ := q
    intro h p hp
    simp only [Dict.set] at hp
    split at hp
    · rcases List.mem_cons.1 hp with rfl | hp
      · exact hv
      · exact h p (List.mem_cons_of_mem _ hp)
    · rcases List.mem_cons.1 hp with rfl | hp
      · exact h (k', v') (by simp)
      · exact ih (fun p hp => h p (List.mem_cons_of_mem _ hp)) p hp

theorem toPath_free {a : Nat} {v w : Val} (h : v.toPath = .ok w) : w ≠ .obj a := by
  cases v <;> simp [Val.toPath] at h <;> subst h <;> simp

theorem free_setAttr {a : Nat} {v : Val} (hv : v ≠ .obj a) (k : String) (d : Attrs) (h : Free a d) :
    Free a (setAttr d k v).1 := by
  unfold setAttr
  split
  · split
    · rename_i w hw
      exact free_set (toPath_free hw) _ d h
    · exact h
  · split
    · split
      · exact h
      · split
        · rename_i w hw
          exact free_set (toPath_free hw) _ d h
        · exact h
    · exact free_set hv _ d h

theorem free_setAll {a : Nat} : ∀ (kw : List (String × Val)) (d : Attrs), (∀ p ∈ kw, p.2 ≠ .obj a) →
    Free a d → Free a (setAll d kw).1 := by
  intro kw
  induction kw with
  | nil => intro d _ h; exact h
  | cons q kw ih =>
    obtain ⟨k, v⟩ := q
    intro d hk h
    have h1 := free_setAttr (hk (k, v) (by simp)) k d h
    rw [setAll]
    split
    · rename_i d' hd
      rw [hd] at h1
      exact ih d' (fun p hp => hk p (List.mem_cons_of_mem _ hp)) h1
    · rename_i d' e hd
      rw [hd] at h1
      exact h1

theorem free_update {a : Nat} : ∀ (old d : Attrs), Free a old → Free a d → Free a (update d old) := by
  intro old
  induction old with
  | nil => intro d _ h; exact h
  | cons q old ih =>
    obtain ⟨k, v⟩ := q
    intro d ho h
    exact ih _ (fun p hp => ho p (List.mem_cons_of_mem _ hp)) (free_set (ho (k, v) (by simp)) k d h)

theorem free_get? {a : Nat} {k : String} {v : Val} : ∀ (d : Attrs), Free a d → Dict.get? d k = some v →
    v ≠ .obj a := by
  intro d
  induction d with
  | nil => intro _ h; simp [Dict.get?] at h
  | cons q d ih =>
    obtain ⟨k', v'⟩ := q
    intro hf h
    simp only [Dict.get?] at h
    split at h
    · obtain rfl := Option.some.inj h
      exact hf (k', v') (by simp)
    · exact ih (fun p hp => hf p (List.mem_cons_of_mem _ hp)) h

theorem free_initLoop {a : Nat} (kw : List (String × Val)) (hk : ∀ p ∈ kw, p.2 ≠ Val.obj a) :
    ∀ (fs : List (String × Val)) (d d' : Attrs), (∀ p ∈ fs, p.2 ≠ Val.obj a) → Free a d →
      initLoop kw fs d = .ok d' → Free a d' := by
  intro fs
  induction fs with
  | nil => intro d d' _ h he; simp only [initLoop, Except.ok.injEq] at he; exact he ▸ h
  | cons q fs ih =>
    obtain ⟨k, dflt⟩ := q
    intro d d' hfs h he
    have hv : ((Dict.get? kw k).getD dflt) ≠ .obj a := by
      cases hg : Dict.get? kw k with
      | none => exact hfs (k, dflt) (by simp)
      | some v => exact free_get? kw hk hg
    have hfs' : ∀ p ∈ fs, p.2 ≠ Val.obj a := fun p hp => hfs p (List.mem_cons_of_mem _ hp)
    simp only [initLoop] at he
    split at he
    · split at he
      · exact absurd he (by simp)
      · rename_i w hw
        refine ih _ d' hfs' (free_set ?_ _ d h) he
        unfold toPathOpt at hw
        split at hw
        · obtain rfl := Except.ok.inj hw
          simp
        · exact toPath_free hw
    · exact ih _ d' hfs' (free_set hv _ d h) he

theorem free_construct {a : Nat} (ha : a ≠ 0) (kw : List (String × Val)) (hk : ∀ p ∈ kw, p.2 ≠ Val.obj a)
    (d : Attrs) (h : construct (.obj 0) kw = .ok d) : Free a d := by
  unfold construct at h
  split at h
  · refine free_initLoop kw hk (fields (.obj 0)) [] d ?_ (fun p hp => absurd hp (by simp)) h
    intro p hp
    simp only [fields, List.mem_cons, List.not_mem_nil, or_false] at hp
    rcases hp with rfl | rfl | rfl | rfl | rfl | rfl | rfl | rfl | rfl | rfl | rfl | rfl | rfl | rfl | rfl
    all_goals first | (simp; done) | (intro h0; exact ha (Val.obj.inj h0).symm)
  · exact absurd h (by simp)

/-- No parameters but those at place `j` refer to the molecule at place `a`. -/
def Alone (a j : Nat) (m : Mem) : Prop := ∀ i d, i ≠ j → m.objs[i]? = some d → Free a d

theorem molOf_free {a j i : Nat} {m : Mem} (h : Alone a j m) (hi : i ≠ j) {b : Nat}
    (hb : m.molOf i = some b) : b ≠ a := by
  unfold Mem.molOf at hb
  split at hb
  · rename_i b' hg
    obtain rfl := Option.some.inj hb
    obtain ⟨d, hd, hg⟩ := Option.bind_eq_some_iff.1 hg
    intro h0
    exact free_get? d (h i d hi hd) hg (by rw [h0])
  · exact absurd hb (by simp)

theorem alone_set {a j i : Nat} {m : Mem} {d' : Attrs} {ms : List Attrs} (h : Alone a j m)
    (hd : Free a d') : Alone a j { mols := ms, objs := m.objs.set i d' } := by
  intro i' e hi' he
  by_cases hii : i = i'
  · subst hii
    rw [List.getElem?_set_self'] at he
    obtain ⟨_, _, rfl⟩ := Option.map_eq_some_iff.1 he
    exact hd
  · rw [List.getElem?_set_ne hii] at he
    exact h i' e hi' he

theorem hexec_alone (a j : Nat) (s : HStmt) : ∀ (m : Mem), s.Leaves j → s.NotOf a → Alone a j m →
    a < m.mols.length →
    (hexec s m).1.mols[a]? = m.mols[a]? ∧ Alone a j (hexec s m).1 ∧ a < (hexec s m).1.mols.length := by
  induction s with
  | skip => intro m _ _ h ha; exact ⟨rfl, h, ha⟩
  | raise e => intro m _ _ h ha; exact ⟨rfl, h, ha⟩
  | seq s t ihs iht =>
    intro m hl hn h ha
    have h1 := ihs m hl.1 hn.1 h ha
    rw [hexec]
    split
    · rename_i m' hm
      rw [hm] at h1
      have h2 := iht m' hl.2 hn.2 h1.2.1 h1.2.2
      exact ⟨h2.1.trans h1.1, h2.2⟩
    · rename_i m' e hm
      rw [hm] at h1
      exact h1
  | attempt s t ihs iht =>
    intro m hl hn h ha
    have h1 := ihs m hl.1 hn.1 h ha
    rw [hexec]
    split
    · rename_i m' hm
      rw [hm] at h1
      exact h1
    · rename_i m' e hm
      rw [hm] at h1
      have h2 := iht m' hl.2 hn.2 h1.2.1 h1.2.2
      exact ⟨h2.1.trans h1.1, h2.2⟩
  | construct kw =>
    intro m _ hn h ha
    rw [hexec]
    split
    · rename_i d hd
      refine ⟨rfl, ?_, ha⟩
      intro i e hi he
      by_cases hlt : i < m.objs.length
      · rw [List.getElem?_append_left hlt] at he
        exact h i e hi he
      · rw [List.getElem?_append_right (by omega)] at he
        obtain rfl : d = e := by
          rw [List.getElem?_singleton] at he
          split at he
          · exact Option.some.inj he
          · exact absurd he (by simp)
        exact free_construct hn.1 kw hn.2 d hd
    · exact ⟨rfl, h, ha⟩
  | assign i k v =>
    intro m hl hn h ha
    rw [hexec]
    split
    · exact ⟨rfl, h, ha⟩
    · rename_i d hd
      exact ⟨rfl, alone_set h (free_setAttr hn k d (h i d hl hd)), ha⟩
  | newMol i attrs =>
    intro m hl _ h ha
    rw [hexec]
    split
    · exact ⟨rfl, h, ha⟩
    · rename_i d hd
      refine ⟨List.getElem?_append_left ha, alone_set h (free_setAttr ?_ _ d (h i d hl hd)), ?_⟩
      · intro h0
        have := Val.obj.inj h0
        omega
      · simp only [List.length_append, List.length_singleton]
        omega
  | change i k v =>
    intro m hl _ h ha
    rw [hexec]
    split
    · exact ⟨rfl, h, ha⟩
    · rename_i b hb
      split
      · exact ⟨rfl, h, ha⟩
      · exact ⟨List.getElem?_set_ne (molOf_free h hl hb), h, by simpa using ha⟩
  | context i kw body ih =>
    intro m hl hn h ha
    rw [hexec]
    split
    · exact ⟨rfl, h, ha⟩
    · rename_i d hd
      have hfd := h i d hl.1 hd
      have hf1 := free_setAll kw d hn.1 hfd
      split
      · rename_i d1 e h1
        rw [h1] at hf1
        exact ⟨rfl, alone_set h hf1, ha⟩
      · rename_i d1 h1
        rw [h1] at hf1
        have h2 := ih { m with objs := m.objs.set i d1 } hl.2 hn.2 (alone_set h hf1) ha
        split
        · rename_i m2 e hm
          rw [hm] at h2
          exact h2
        · rename_i m2 hm
          rw [hm] at h2
          refine ⟨h2.1, ?_, h2.2.2⟩
          intro i' e hi' he
          simp only [List.getElem?_modify] at he
          obtain ⟨d2, hd2, rfl⟩ := Option.map_eq_some_iff.1 he
          have hf2 := h2.2.1 i' d2 hi' hd2
          split
          · exact free_update d d2 hfd hf2
          · exact hf2

end Verif.Names
