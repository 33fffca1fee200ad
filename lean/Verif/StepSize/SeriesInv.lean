import Verif.StepSize.SeriesLemmas
/-!
# The invariant of `GenerateStepSeries` between calls of `next`, and one call
-/

namespace Verif.StepSize

/-- The values beyond `c`. -/
def after (c : Int) (l : List Int) : List Int := l.filter (fun x => decide (c < x))

theorem mem_after (c x : Int) (l : List Int) : x ∈ after c l ↔ x ∈ l ∧ c < x := by
  simp [after, List.mem_filter]

theorem after_after (c m : Int) (l : List Int) (h : c ≤ m) : after m (after c l) = after m l := by
  unfold after
  rw [List.filter_filter]
  congr 1
  funext x
  by_cases h1 : m < x
  · have : c < x := by omega
    simp [h1, this]
  · simp [h1]

theorem after_of_all (c : Int) (l : List Int) (h : ∀ x ∈ l, c < x) : after c l = l := by
  unfold after
  rw [List.filter_eq_self]
  intro x hx
  simpa using h x hx

theorem after_pairwise (c : Int) (l : List Int) (h : l.Pairwise (· < ·)) :
    (after c l).Pairwise (· < ·) := h.filter _

theorem after_tail (c m : Int) (l rest : List Int) (h : l.Pairwise (· < ·))
    (he : after c l = m :: rest) : after m l = rest ∧ ∀ x ∈ rest, m < x := by
  have hp := after_pairwise c l h
  rw [he, List.pairwise_cons] at hp
  have hcm : c < m := ((mem_after c m l).1 (by rw [he]; simp)).2
  refine ⟨?_, hp.1⟩
  rw [← after_after c m l hcm.le, he]
  have : after m (m :: rest) = after m rest := by
    unfold after; rw [List.filter_cons]; simp
  rw [this, after_of_all _ _ hp.1]

theorem after_same (c m : Int) (l : List Int) (h : l.Pairwise (· < ·)) (hcm : c ≤ m)
    (hh : ∀ k, (after c l).head? = some k → m < k) : after m l = after c l := by
  rw [← after_after c m l hcm]
  apply after_of_all
  have hp := after_pairwise c l h
  cases hl : after c l with
  | nil => simp
  | cons a r =>
    rw [hl] at hh hp
    have ha := hh a rfl
    rw [List.pairwise_cons] at hp
    intro x hx
    rw [List.mem_cons] at hx
    rcases hx with rfl | hx
    · exact ha
    · have := hp.1 x hx; omega

/-- The invariant between calls of `next()`; `c` is the step returned last (`-1` before the first
call), `starts` the starting steps of the generators created so far. -/
structure Inv (total nl gen maxGen : Int) (c : Int) (s : Series) (starts : List Int) : Prop where
  hcfg : s.total = total ∧ s.numLinear = nl ∧ s.genSteps = gen ∧ s.maxGen = maxGen
  core : Core s (starts.map (fun st => after c (generateSteps total nl st))) c
  low : ∀ k, k ≤ c → k ≠ s.currStep → s.values.get? k = none
  curr : (s.currStep = c ∧ (s.values.get? c).isSome ∧ 0 ≤ c) ∨
    (c = -1 ∧ s.currStep = 0 ∧ starts = [0])
  bound : ∀ st ∈ starts, 0 ≤ st ∧ st ≤ total ∧ (st ≤ c ∨ c = -1)

theorem le_total_of_mem (total nl st x : Int) (hnl : 1 ≤ nl)
    (hx : x ∈ generateSteps total nl st) : x ≤ total := by
  rw [mem_generateSteps _ _ _ _ hnl] at hx
  unfold Wants at hx; omega

theorem start_le_of_mem (total nl st x : Int) (hnl : 1 ≤ nl) (h : st ≤ total)
    (hx : x ∈ generateSteps total nl st) : st ≤ x := by
  rw [mem_generateSteps _ _ _ _ hnl] at hx
  unfold Wants at hx; omega

theorem generateSteps_eq_cons (total nl st : Int) (hnl : 1 ≤ nl) (h : st ≤ total) :
    ∃ rest, generateSteps total nl st = st :: rest := by
  have := generateSteps_head total nl st hnl
  have he : (if st < total then st else total) = st := by
    split <;> omega
  rw [he] at this
  cases hl : generateSteps total nl st with
  | nil => rw [hl] at this; simp at this
  | cons a l => rw [hl] at this; simp at this; exact ⟨l, by rw [this]⟩

theorem init_inv (total nl gen maxGen : Int) (hnl : 1 ≤ nl) (ht : 0 ≤ total) :
    Inv total nl gen maxGen (-1) (Series.init total nl gen maxGen) [0] := by
  obtain ⟨rest, hg⟩ := generateSteps_eq_cons total nl 0 hnl ht
  have hs : Series.init total nl gen maxGen =
      { total, numLinear := nl, genSteps := gen, maxGen, currStep := 0, iters := [rest],
        values := [(0, [0])], queue := [0] } := by
    simp [Series.init, Series.addGenerator, Series.enqueue, hg, Dict.get?, Dict.set]
  have ha : after (-1) (generateSteps total nl 0) = 0 :: rest := by
    rw [← hg]
    apply after_of_all
    intro x hx
    have := start_le_of_mem total nl 0 x hnl ht hx
    omega
  rw [hs]
  refine ⟨⟨rfl, rfl, rfl, rfl⟩, ?_, ?_, Or.inr ⟨rfl, rfl, rfl⟩, ?_⟩
  · simp only [List.map_cons, List.map_nil, ha]
    have hpend : ∀ i k, Pending [0 :: rest] i k ↔ i = 0 ∧ k = 0 := by
      intro i k
      unfold Pending
      constructor
      · rintro ⟨r, hr, hh⟩
        cases i with
        | zero => simp at hr; subst hr; simp at hh; exact ⟨rfl, hh.symm⟩
        | succ i => simp at hr
      · rintro ⟨rfl, rfl⟩
        exact ⟨0 :: rest, rfl, rfl⟩
    refine ⟨rfl, ?_, ?_, ?_, by simp, ?_⟩
    · intro k _ i
      rw [hpend]
      by_cases hk : k = 0
      · subst hk; simp [Series.vals, Dict.get?]
      · have : ¬ (0:Int) = k := fun e => hk e.symm
        simp [Series.vals, Dict.get?, hk, this]
    · intro k _
      by_cases hk : (0:Int) = k
      · subst hk; simp [Series.vals, Dict.get?]
      · simp [Series.vals, Dict.get?, hk]
    · intro k _
      by_cases hk : (0:Int) = k
      · subst hk; simp [Dict.get?]
      · simp [Dict.get?, hk]
    · intro x
      by_cases hk : (0:Int) = x
      · subst hk; simp [Dict.get?]
      · have : ¬ x = 0 := fun e => hk e.symm
        simp [Dict.get?, hk, this]
  · intro k hk _
    have : ¬ (0:Int) = k := by omega
    simp [Dict.get?, this]
  · simp [ht]

/-- The generators after a step at `m`. -/
def newStarts (gen maxGen : Int) (starts : List Int) (m : Int) : List Int :=
  if m % gen = 0 ∧ m > 0 ∧ (starts.length : Int) < maxGen then starts ++ [m] else starts

theorem next_stop (total nl gen maxGen : Int) (c : Int)
    (s : Series) (starts : List Int) (hI : Inv total nl gen maxGen c s starts)
    (hq : s.queue = []) :
    s.next = .error .stopIteration ∧
      ∀ st ∈ starts, ∀ x ∈ generateSteps total nl st, x ≤ c := by
  refine ⟨?_, ?_⟩
  · unfold Series.next
    rw [hq]; rfl
  · intro st hst x hx
    by_contra hlt
    have hlt : c < x := by omega
    obtain ⟨i, hi⟩ := List.mem_iff_getElem?.1 hst
    have hmem : x ∈ after c (generateSteps total nl st) := (mem_after ..).2 ⟨hx, hlt⟩
    cases hl : after c (generateSteps total nl st) with
    | nil => rw [hl] at hmem; simp at hmem
    | cons k r =>
      have hck : c < k := ((mem_after c k _).1 (by rw [hl]; simp)).2
      have hp : Pending (starts.map (fun st => after c (generateSteps total nl st))) i k := by
        refine ⟨k :: r, ?_, rfl⟩
        rw [List.getElem?_map, hi, Option.map_some, hl]
      have hv := (hI.core.mem k hck i).2 hp
      have : k ∈ s.queue := by
        rw [hI.core.queue]
        refine ⟨hck, ?_⟩
        unfold Series.vals at hv
        cases hg : s.values.get? k with
        | none => rw [hg] at hv; simp at hv
        | some _ => rfl
      rw [hq] at this
      simp at this

theorem next_step (total nl gen maxGen : Int) (hnl : 1 ≤ nl) (hgen : gen ≠ 0) (ht : 0 ≤ total)
    (c : Int) (s : Series) (starts : List Int) (hI : Inv total nl gen maxGen c s starts)
    (m : Int) (hm : minimum s.queue = some m) :
    ∃ s', s.next = .ok (m, s') ∧ c < m ∧ 0 ≤ m ∧
      Inv total nl gen maxGen m s' (newStarts gen maxGen starts m) ∧
      s'.getIndex.Nodup ∧
      (∀ i, i ∈ s'.getIndex ↔ ∃ st, (newStarts gen maxGen starts m)[i]? = some st ∧
        m ∈ generateSteps total nl st) ∧
      (∀ st ∈ starts, ∀ x ∈ generateSteps total nl st, c < x → m ≤ x) ∧
      (∃ st ∈ starts, m ∈ generateSteps total nl st) := by
  obtain ⟨hmq, hmin⟩ := minimum_mem _ _ hm
  have hcore := hI.core
  obtain ⟨hcm, hmsome⟩ := (hcore.queue m).1 hmq
  set rems := starts.map (fun st => after c (generateSteps total nl st)) with hrems
  -- the smallest pending step
  have hhead_ge : ∀ i k, Pending rems i k → m ≤ k := by
    rintro i k ⟨r, hr, hh⟩
    have hck : c < k := by
      rw [hrems, List.getElem?_map] at hr
      cases hs : starts[i]? with
      | none => rw [hs] at hr; simp at hr
      | some st =>
        rw [hs, Option.map_some, Option.some.injEq] at hr
        subst hr
        exact ((mem_after _ _ _).1 (List.mem_of_head? hh)).2
    apply hmin
    rw [hcore.queue]
    refine ⟨hck, ?_⟩
    have := (hcore.mem k hck i).2 ⟨r, hr, hh⟩
    unfold Series.vals at this
    cases hg : s.values.get? k with
    | none => rw [hg] at this; simp at this
    | some _ => rfl
  have hpend_of_mem : ∀ st ∈ starts, ∀ x ∈ generateSteps total nl st, c < x → m ≤ x := by
    intro st hst x hx hcx
    obtain ⟨i, hi⟩ := List.mem_iff_getElem?.1 hst
    have hmem : x ∈ after c (generateSteps total nl st) := (mem_after ..).2 ⟨hx, hcx⟩
    have hpw := after_pairwise c _ (generateSteps_pairwise total nl st hnl)
    cases hl : after c (generateSteps total nl st) with
    | nil => rw [hl] at hmem; simp at hmem
    | cons k r =>
      have hp : Pending rems i k := by
        refine ⟨k :: r, ?_, rfl⟩
        rw [hrems, List.getElem?_map, hi, Option.map_some, hl]
      have h1 := hhead_ge i k hp
      rw [hl] at hmem hpw
      rw [List.pairwise_cons] at hpw
      rw [List.mem_cons] at hmem
      rcases hmem with rfl | hmem
      · exact h1
      · have := hpw.1 x hmem; omega
  obtain ⟨L0, hL0⟩ := Option.isSome_iff_exists.1 hmsome
  have hL0mem : ∀ i, i ∈ L0 ↔ Pending rems i m := by
    intro i
    have := hcore.mem m hcm i
    simpa [Series.vals, hL0] using this
  have hL0nd : L0.Nodup := by
    have := hcore.nodup m hcm
    simpa [Series.vals, hL0] using this
  have hsome_mem : ∀ i st, starts[i]? = some st → (Pending rems i m ↔ m ∈ generateSteps total nl st) := by
    intro i st hi
    have hri : rems[i]? = some (after c (generateSteps total nl st)) := by
      rw [hrems, List.getElem?_map, hi]; rfl
    constructor
    · rintro ⟨r, hr, hh⟩
      rw [hri] at hr
      cases hr
      exact ((mem_after _ _ _).1 (List.mem_of_head? hh)).1
    · intro hx
      have hmem : m ∈ after c (generateSteps total nl st) := (mem_after ..).2 ⟨hx, hcm⟩
      have hpw := after_pairwise c _ (generateSteps_pairwise total nl st hnl)
      cases hl : after c (generateSteps total nl st) with
      | nil => rw [hl] at hmem; simp at hmem
      | cons k r =>
        have hp : Pending rems i k := ⟨k :: r, by rw [hri, hl], rfl⟩
        have h1 := hhead_ge i k hp
        rw [hl] at hmem hpw
        rw [List.pairwise_cons] at hpw
        rw [List.mem_cons] at hmem
        rcases hmem with rfl | hmem
        · exact hp
        · have := hpw.1 m hmem; omega
  -- existence of a generator wanting m
  have hex : ∃ st ∈ starts, m ∈ generateSteps total nl st := by
    have hne := hcore.nonempty m hcm
    cases hl : L0 with
    | nil => rw [hL0, hl] at hne; exact absurd rfl hne
    | cons i L =>
      have hp := (hL0mem i).1 (by rw [hl]; simp)
      obtain ⟨r, hr, hh⟩ := hp
      cases hs : starts[i]? with
      | none => rw [hrems, List.getElem?_map, hs] at hr; simp at hr
      | some st =>
        exact ⟨st, List.mem_of_getElem? hs, (hsome_mem i st hs).1 ⟨r, hr, hh⟩⟩
  have hm0 : 0 ≤ m := by
    rcases hI.curr with ⟨_, _, h0⟩ | ⟨h1, _, h3⟩
    · omega
    · omega
  have hmt : m ≤ total := by
    obtain ⟨st, _, hx⟩ := hex
    exact le_total_of_mem total nl st m hnl hx
  -- cleanup
  have hclean : ∃ s1, Series.cleanup { s with currStep := m, queue := s.queue.erase m } s.currStep
      = .ok s1 ∧ s1.currStep = m ∧ s1.queue = s.queue.erase m ∧ s1.iters = s.iters ∧
      s1.total = total ∧ s1.numLinear = nl ∧ s1.genSteps = gen ∧ s1.maxGen = maxGen ∧
      (∀ k, k ≤ c → s1.values.get? k = none) ∧
      (∀ k, c < k → s1.values.get? k = s.values.get? k) := by
    obtain ⟨g1, g2, g3, g4⟩ := hI.hcfg
    rcases hI.curr with ⟨h1, h2, h3⟩ | ⟨h1, h2, h3⟩
    · have hne : m ≠ s.currStep := by omega
      unfold Series.cleanup
      simp only [ne_eq, hne, not_false_eq_true, if_true, Dict.del, Dict.mem]
      simp only [h1, h2, if_true]
      refine ⟨_, rfl, rfl, rfl, rfl, g1, g2, g3, g4, ?_, ?_⟩
      · intro k hk
        dsimp only
        rw [Dict.get?_erase]
        split
        · rfl
        · rename_i hck
          exact hI.low k hk (by omega)
      · intro k hk
        dsimp only
        rw [Dict.get?_erase, if_neg (by omega)]
    · have hm_eq : m = 0 := by
        obtain ⟨st, hst, hx⟩ := hex
        rw [h3, List.mem_singleton] at hst
        subst hst
        obtain ⟨rest, hg⟩ := generateSteps_eq_cons total nl 0 hnl ht
        have : m ≤ 0 := hpend_of_mem 0 (by rw [h3]; simp) 0 (by rw [hg]; simp) (by omega)
        omega
      have he : ¬ m ≠ s.currStep := by omega
      unfold Series.cleanup
      rw [if_neg he]
      refine ⟨_, rfl, rfl, rfl, rfl, g1, g2, g3, g4, ?_, ?_⟩
      · intro k hk
        exact hI.low k hk (by omega)
      · intro k hk; rfl
  obtain ⟨s1, hs1, hs1c, hs1q, hs1i, t1, t2, t3, t4, hlow, hhigh⟩ := hclean
  have hlowm : ∀ k, k < m → s1.values.get? k = none := by
    intro k hk
    by_cases hkc : k ≤ c
    · exact hlow k hkc
    · have hkc : c < k := by omega
      rw [hhigh k hkc]
      cases hg : s.values.get? k with
      | none => rfl
      | some _ =>
        have : k ∈ s.queue := by rw [hcore.queue]; exact ⟨hkc, by rw [hg]; rfl⟩
        have := hmin k this
        omega
  have hvals : ∀ k, m < k → s1.vals k = s.vals k := by
    intro k hk; unfold Series.vals; rw [hhigh k (by omega)]
  have hc1 : Core s1 rems m := by
    refine ⟨by rw [hs1i]; exact hcore.iters, ?_, ?_, ?_, ?_, ?_⟩
    · intro k hk i; rw [hvals k hk]; exact hcore.mem k (by omega) i
    · intro k hk; rw [hvals k hk]; exact hcore.nodup k (by omega)
    · intro k hk; rw [hhigh k (by omega)]; exact hcore.nonempty k (by omega)
    · rw [hs1q]; exact hcore.qnodup.erase _
    · intro x
      rw [hs1q, hcore.qnodup.mem_erase_iff, hcore.queue]
      constructor
      · rintro ⟨h1, h2, h3⟩
        have : m ≤ x := hmin x ((hcore.queue x).2 ⟨h2, h3⟩)
        refine ⟨by omega, ?_⟩
        rw [hhigh x h2]; exact h3
      · rintro ⟨h1, h2⟩
        rw [hhigh x (by omega)] at h2
        exact ⟨by omega, by omega, h2⟩
  have hg1 : s1.values.get? m = some L0 := by rw [hhigh m hcm, hL0]
  -- new generator
  set starts' := newStarts gen maxGen starts m with hst'
  set rems' := starts'.map (fun st => after c (generateSteps total nl st)) with hrems'
  clear_value rems'
  have hlen : (s1.iters.length : Int) = starts.length := by
    rw [hs1i, hcore.iters, hrems]; simp
  have hnew : ∃ s2 L, s1.checkNew = .ok s2 ∧ Core s2 rems' m ∧ s2.currStep = m ∧
      s2.values.get? m = some L ∧ (∀ k, k < m → s2.values.get? k = none) ∧
      L.Nodup ∧ (∀ i, i ∈ L ↔ ∃ st, starts'[i]? = some st ∧ m ∈ generateSteps total nl st) ∧
      s2.total = total ∧ s2.numLinear = nl ∧ s2.genSteps = gen ∧ s2.maxGen = maxGen := by
    have hold : ∀ i, i ∈ L0 ↔ ∃ st, starts[i]? = some st ∧ m ∈ generateSteps total nl st := by
      intro i
      rw [hL0mem]
      constructor
      · rintro ⟨r, hr, hh⟩
        cases hs : starts[i]? with
        | none => rw [hrems, List.getElem?_map, hs] at hr; simp at hr
        | some st => exact ⟨st, rfl, (hsome_mem i st hs).1 ⟨r, hr, hh⟩⟩
      · rintro ⟨st, hs, hx⟩
        exact (hsome_mem i st hs).2 hx
    unfold Series.checkNew
    rw [t3, if_neg hgen, hs1c, t4]
    unfold Series.numGenerators
    rw [hlen]
    by_cases hcond : m % gen = 0 ∧ m > 0
    · rw [if_pos hcond]
      by_cases hmax : (starts.length : Int) < maxGen
      · rw [if_pos hmax]
        have hS : starts' = starts ++ [m] := by
          rw [hst']; unfold newStarts; rw [if_pos ⟨hcond.1, hcond.2, hmax⟩]
        obtain ⟨rest, hg⟩ := generateSteps_eq_cons total nl m hnl hmt
        have hlenN : s1.iters.length = starts.length := by omega
        have hadd : s1.addGenerator = { s1 with
            iters := s1.iters ++ [rest], values := s1.values.set m (L0 ++ [starts.length]) } := by
          unfold Series.addGenerator
          simp only [t1, t2, hs1c, hg]
          unfold Series.enqueue
          simp only [List.getElem?_concat_length, hg1]
          rw [List.set_append_right _ _ (by omega), hlenN]
          simp
        have haft : after c (generateSteps total nl m) = m :: rest := by
          rw [← hg]
          apply after_of_all
          intro x hx
          have := start_le_of_mem total nl m x hnl hmt hx
          omega
        have hR : rems' = rems ++ [m :: rest] := by
          rw [hrems', hS, List.map_append, ← hrems]
          simp [haft]
        have hlr : rems.length = starts.length := by rw [hrems]; simp
        have hpend : ∀ i k, m < k → (Pending rems' i k ↔ Pending rems i k) := by
          intro i k hk
          unfold Pending
          rw [hR]
          rcases Nat.lt_trichotomy i rems.length with h | h | h
          · rw [List.getElem?_append_left h]
          · subst h
            simp
            omega
          · rw [List.getElem?_append_right (by omega)]
            have h1 : rems[i]? = none := by rw [List.getElem?_eq_none_iff]; omega
            obtain ⟨d, hd⟩ : ∃ d, i - rems.length = d + 1 := ⟨i - rems.length - 1, by omega⟩
            rw [hd, h1]
            simp
        refine ⟨_, L0 ++ [starts.length], rfl, ?_, ?_, ?_, ?_, ?_, ?_, ?_⟩
        · rw [hadd]
          have hgk : ∀ k, m < k → (s1.values.set m (L0 ++ [starts.length])).get? k
              = s1.values.get? k := by
            intro k hk; rw [Dict.get?_set, if_neg (by omega)]
          refine ⟨?_, ?_, ?_, ?_, hc1.qnodup, ?_⟩
          · dsimp only
            rw [hR, List.map_append, hc1.iters]; rfl
          · intro k hk i
            rw [hpend i k hk, ← hc1.mem k hk i]
            simp only [Series.vals]
            rw [hgk k hk]
          · intro k hk
            simp only [Series.vals]
            rw [hgk k hk]
            exact hc1.nodup k hk
          · intro k hk
            dsimp only
            rw [hgk k hk]
            exact hc1.nonempty k hk
          · intro x
            dsimp only
            rw [hc1.queue x]
            constructor
            · rintro ⟨h1, h2⟩; exact ⟨h1, by rw [hgk x h1]; exact h2⟩
            · rintro ⟨h1, h2⟩; exact ⟨h1, by rw [hgk x h1] at h2; exact h2⟩
        · rw [hadd]; exact hs1c
        · rw [hadd]; dsimp only; rw [Dict.get?_set, if_pos rfl]
        · intro k hk
          rw [hadd]; dsimp only; rw [Dict.get?_set, if_neg (by omega)]
          exact hlowm k hk
        · rw [List.nodup_append]
          refine ⟨hL0nd, by simp, ?_⟩
          intro a ha b hb
          rw [List.mem_singleton] at hb
          subst hb
          rintro rfl
          obtain ⟨st, hs, _⟩ := (hold _).1 ha
          simp at hs
        · intro i
          rw [List.mem_append, hold, List.mem_singleton, hS]
          constructor
          · rintro (⟨st, hs, hx⟩ | rfl)
            · refine ⟨st, ?_, hx⟩
              rw [List.getElem?_append_left (List.getElem?_eq_some_iff.1 hs).1, hs]
            · exact ⟨m, by simp, by rw [hg]; simp⟩
          · rintro ⟨st, hs, hx⟩
            by_cases hi : i < starts.length
            · rw [List.getElem?_append_left hi] at hs
              exact Or.inl ⟨st, hs, hx⟩
            · right
              have := (List.getElem?_eq_some_iff.1 hs).1
              simp at this
              omega
        · rw [hadd]; exact ⟨t1, t2, t3, t4⟩
      · rw [if_neg hmax]
        have hS : starts' = starts := by
          rw [hst']; unfold newStarts; rw [if_neg (fun h => hmax h.2.2)]
        rw [hrems', hS]
        exact ⟨s1, L0, rfl, hc1, hs1c, hg1, hlowm, hL0nd, hold, t1, t2, t3, t4⟩
    · rw [if_neg hcond]
      have hS : starts' = starts := by
        rw [hst']; unfold newStarts; rw [if_neg (fun h => hcond ⟨h.1, h.2.1⟩)]
      rw [hrems', hS]
      exact ⟨s1, L0, rfl, hc1, hs1c, hg1, hlowm, hL0nd, hold, t1, t2, t3, t4⟩
  obtain ⟨s2, L, hs2, hc2, hs2c, hg2, hlow2, hLnd, hLmem, u1, u2, u3, u4⟩ := hnew
  -- bounds of the starts
  have hbound' : ∀ st ∈ starts', 0 ≤ st ∧ st ≤ total ∧ st ≤ m := by
    intro st hst
    have hold : st ∈ starts → 0 ≤ st ∧ st ≤ total ∧ st ≤ m := by
      intro h
      have hb := hI.bound st h
      refine ⟨hb.1, hb.2.1, ?_⟩
      rcases hI.curr with ⟨_, _, h0⟩ | ⟨_, _, h3⟩
      · omega
      · rw [h3, List.mem_singleton] at h; omega
    rw [hst'] at hst
    unfold newStarts at hst
    split at hst
    · rw [List.mem_append, List.mem_singleton] at hst
      rcases hst with h | rfl
      · exact hold h
      · exact ⟨hm0, hmt, le_refl _⟩
    · exact hold hst
  -- the loop
  have hheadL : ∀ i ∈ L, ∃ rest, rems'[i]? = some (m :: rest) ∧ ∀ x ∈ rest, m < x := by
    intro i hi
    obtain ⟨st, hs, hx⟩ := (hLmem i).1 hi
    have hri : rems'[i]? = some (after c (generateSteps total nl st)) := by
      rw [hrems', List.getElem?_map, hs]; rfl
    have hpw := generateSteps_pairwise total nl st hnl
    have hmem : m ∈ after c (generateSteps total nl st) := (mem_after ..).2 ⟨hx, hcm⟩
    cases hl : after c (generateSteps total nl st) with
    | nil => rw [hl] at hmem; simp at hmem
    | cons k r =>
      have hkm : k = m := by
        have hk := (mem_after c k (generateSteps total nl st)).1 (by rw [hl]; simp)
        have hap := after_pairwise c _ hpw
        rw [hl, List.pairwise_cons] at hap
        rw [hl, List.mem_cons] at hmem
        rcases hmem with h | h
        · exact h.symm
        · have h1 := hap.1 m h
          -- then `st` wants `k < m`, impossible
          have hst := List.mem_of_getElem? hs
          rw [hst'] at hst
          unfold newStarts at hst
          split at hst
          · rw [List.mem_append, List.mem_singleton] at hst
            rcases hst with h2 | h2
            · have := hpend_of_mem st h2 k hk.1 hk.2
              omega
            · subst h2
              have := start_le_of_mem total nl st k hnl hmt hk.1
              omega
          · have := hpend_of_mem st hst k hk.1 hk.2
            omega
      subst hkm
      refine ⟨r, by rw [hri, hl], (after_tail c k _ r hpw hl).2⟩
  obtain ⟨rf, v1, v2, v3, v4, v5, v6, v7, v8, v9⟩ := enqueueAll_core L hLnd m rems' hheadL
    s2.turns 0 s2 rems' (by unfold Series.turns; rw [hs2c, hg2]; simp; omega) hc2 hs2c hg2 hlow2
    (by intro i; simp)
  refine ⟨s2.enqueueAll s2.turns 0, ?_, hcm, hm0, ?_, ?_, ?_, hpend_of_mem, hex⟩
  · unfold Series.next
    rw [hm]
    simp only [hs1, hs2, hg2]
  · refine ⟨⟨by rw [v6, u1], by rw [v7, u2], by rw [v8, u3], by rw [v9, u4]⟩, ?_, ?_, ?_, ?_⟩
    · have : rf = starts'.map (fun st => after m (generateSteps total nl st)) := by
        apply List.ext_getElem?
        intro i
        rw [v5 i, List.getElem?_map]
        cases hs : starts'[i]? with
        | none =>
          have : rems'[i]? = none := by rw [hrems', List.getElem?_map, hs]; rfl
          rw [this]; simp
        | some st =>
          have hri : rems'[i]? = some (after c (generateSteps total nl st)) := by
            rw [hrems', List.getElem?_map, hs]; rfl
          rw [hri]
          have hpw := generateSteps_pairwise total nl st hnl
          by_cases hi : i ∈ L
          · rw [if_pos hi]
            obtain ⟨rest, hr, _⟩ := hheadL i hi
            rw [hri, Option.some.injEq] at hr
            rw [hr, Option.map_some, Option.map_some, (after_tail c m _ rest hpw hr).1]
            rfl
          · rw [if_neg hi, Option.map_some]
            have hnm : m ∉ generateSteps total nl st := by
              intro hx; exact hi ((hLmem i).2 ⟨st, hs, hx⟩)
            rw [after_same c m _ hpw hcm.le]
            intro k hk
            have hkm := (mem_after c k _).1 (List.mem_of_head? hk)
            have hne : k ≠ m := by rintro rfl; exact hnm hkm.1
            have hst := List.mem_of_getElem? hs
            rw [hst'] at hst
            unfold newStarts at hst
            split at hst
            · rw [List.mem_append, List.mem_singleton] at hst
              rcases hst with h2 | h2
              · have := hpend_of_mem st h2 k hkm.1 hkm.2
                omega
              · subst h2
                have := start_le_of_mem total nl st k hnl hmt hkm.1
                omega
            · have := hpend_of_mem st hst k hkm.1 hkm.2
              omega
      rw [← this]
      exact v1
    · intro k hk hne
      rw [v2] at hne
      exact v4 k (by omega)
    · left
      exact ⟨v2, by rw [v3]; rfl, hm0⟩
    · intro st hst
      have := hbound' st hst
      exact ⟨this.1, this.2.1, Or.inl this.2.2⟩
  · unfold Series.getIndex
    rw [v2, v3]; exact hLnd
  · intro i
    unfold Series.getIndex
    rw [v2, v3]
    exact hLmem i

end Verif.StepSize
