import Verif.Relax.Props
import Verif.Pipeline.Lemmas
/-!
# The default relaxations of a keyframe, column by column
-/

namespace Verif.Pipeline

open Verif.Motion Verif.Dynamics Verif.Relax Verif.Gsd Verif.Process Verif.Cache

/-- What the default relaxations hold after a history, for each molecule. -/
theorem default_cells {K : Type} [Field K] [LinearOrder K] [IsStrictOrderedRing K] (n : ℕ)
    (dist pi : K) (hd : 0 ≤ dist) (hp : 0 ≤ pi)
    (frames : List (Int × List (Fl K) × List (Fl K)))
    (hf : ∀ f ∈ frames, f.2.1.length = n ∧ f.2.2.length = n) :
    ∃ d, runAll (setMolRelax n [] (defaults dist pi)).1 frames = (d, none) ∧ d ≠ [] ∧
      d.map Prod.fst = ["tau_D", "tau_F", "tau_L", "tau_T2", "tau_T3", "tau_T4"] ∧
      ∀ m < n,
        (∀ name thr, (name, thr) ∈ [("tau_D", 3 * dist), ("tau_F", dist)] →
          ∃ x, cell d name m = some x ∧ IsLeast {x | x = maxValue ∨
            ∃ q ∈ ofMol m (sel .translation frames), Exceeds q.2 (some thr) ∧ x = q.1} x) ∧
        (∀ name thr, (name, thr) ∈ [("tau_T2", pi / 2), ("tau_T3", pi / 3), ("tau_T4", pi / 4)] →
          ∃ x, cell d name m = some x ∧ IsLeast {x | x = maxValue ∨
            ∃ q ∈ ofMol m (sel .rotation frames), Exceeds q.2 (some thr) ∧ x = q.1} x) ∧
        ∃ x, cell d "tau_L" m = some x ∧
          (((∀ i, ¬ FirstIrreversible (some dist) (some (3 * dist))
              (ofMol m (sel .translation frames)) i) ∧ x = maxValue) ∨
           ∃ i j, FirstIrreversible (some dist) (some (3 * dist))
              (ofMol m (sel .translation frames)) i ∧
            LeftAt (some dist) (ofMol m (sel .translation frames)) i j ∧
            ((ofMol m (sel .translation frames))[j]?).map Prod.fst = some x) := by
  rw [defaults_dict n [] dist pi hd hp]
  obtain ⟨d, h1, h2⟩ := runAll_ok n frames _ (by simp [MolRelax.size, First.new, Last.new] :
      ∀ p ∈ [("tau_D", MolRelax.first (First.new n (some (3 * dist)) .translation)),
        ("tau_F", .first (First.new n (some dist) .translation)),
        ("tau_L", .last (Last.new n (some dist) (some (3 * dist)) .translation)),
        ("tau_T2", .first (First.new n (some (pi / 2)) .rotation)),
        ("tau_T3", .first (First.new n (some (pi / 3)) .rotation)),
        ("tau_T4", .first (First.new n (some (pi / 4)) .rotation))], p.2.size = n) hf
  refine ⟨d, h1, ?_⟩
  obtain ⟨pD, dD, hD, h2D, rfl⟩ := List.forall₂_cons_left_iff.1 h2
  obtain ⟨pF, dF, hF, h2F, rfl⟩ := List.forall₂_cons_left_iff.1 h2D
  obtain ⟨pL, dL, hL, h2L, rfl⟩ := List.forall₂_cons_left_iff.1 h2F
  obtain ⟨pT2, dT2, hT2, h2T2, rfl⟩ := List.forall₂_cons_left_iff.1 h2L
  obtain ⟨pT3, dT3, hT3, h2T3, rfl⟩ := List.forall₂_cons_left_iff.1 h2T2
  obtain ⟨pT4, dT4, hT4, h2T4, rfl⟩ := List.forall₂_cons_left_iff.1 h2T3
  obtain rfl := List.forall₂_nil_left_iff.1 h2T4
  obtain ⟨nD, rD⟩ := pD; obtain ⟨nF, rF⟩ := pF; obtain ⟨nL, rL⟩ := pL
  obtain ⟨nT2, rT2⟩ := pT2; obtain ⟨nT3, rT3⟩ := pT3; obtain ⟨nT4, rT4⟩ := pT4
  obtain ⟨rfl, hD⟩ := hD; obtain ⟨rfl, hF⟩ := hF; obtain ⟨rfl, hL⟩ := hL
  obtain ⟨rfl, hT2⟩ := hT2; obtain ⟨rfl, hT3⟩ := hT3; obtain ⟨rfl, hT4⟩ := hT4
  refine ⟨by simp, rfl, ?_⟩
  intro m hm
  have hsel : ∀ k, ∀ p ∈ sel k frames, p.2.length = n := by
    intro k p hp
    obtain ⟨f, hf1, rfl⟩ := List.mem_map.1 hp
    simp only
    split
    · exact (hf f hf1).2
    · exact (hf f hf1).1
  have hfirst : ∀ (thr : Option K) (k : Kind) (r : MolRelax K),
      (MolRelax.first (First.new n thr k)).run (sel k frames) = .ok r →
      ∃ s, r.getStatus[m]? = some s ∧ IsLeast {x | x = maxValue ∨
        ∃ q ∈ ofMol m (sel k frames), Exceeds q.2 thr ∧ x = q.1} s := by
    intro thr k r hr
    obtain ⟨r', h3, _, h4⟩ := C41_first_passage n thr k (sel k frames) (hsel k)
    rw [MolRelax.run_first, h3] at hr
    obtain ⟨s, h5, h6⟩ := h4 m hm
    simp only [Except.map, Except.ok.injEq] at hr
    subst hr
    exact ⟨s, h5, h6⟩
  obtain ⟨D, hD1, hD2⟩ := hfirst _ _ _ hD
  obtain ⟨F, hF1, hF2⟩ := hfirst _ _ _ hF
  obtain ⟨T2, hT21, hT22⟩ := hfirst _ _ _ hT2
  obtain ⟨T3, hT31, hT32⟩ := hfirst _ _ _ hT3
  obtain ⟨T4, hT41, hT42⟩ := hfirst _ _ _ hT4
  obtain ⟨rL', h3, _, h4⟩ := C42_last_passage n (some dist) (some (3 * dist)) .translation
    (sel .translation frames) (hsel _)
  obtain ⟨L, hL1, hL2⟩ := h4 m hm
  simp only [MolRelax.kind, Last.new] at hL
  rw [MolRelax.run_last] at hL
  simp only [Last.new] at h3
  rw [h3] at hL
  simp only [Except.map, Except.ok.injEq] at hL
  subst hL
  refine ⟨?_, ?_, L, ?_, hL2⟩
  · intro name thr h
    simp only [List.mem_cons, Prod.mk.injEq, List.not_mem_nil, or_false] at h
    rcases h with ⟨rfl, rfl⟩ | ⟨rfl, rfl⟩
    · exact ⟨D, by rw [cell_eq _ _ m rD (by simp [Dict.get?])]; exact hD1, hD2⟩
    · exact ⟨F, by rw [cell_eq _ _ m rF (by simp [Dict.get?])]; exact hF1, hF2⟩
  · intro name thr h
    simp only [List.mem_cons, Prod.mk.injEq, List.not_mem_nil, or_false] at h
    rcases h with ⟨rfl, rfl⟩ | ⟨rfl, rfl⟩ | ⟨rfl, rfl⟩
    · exact ⟨T2, by rw [cell_eq _ _ m rT2 (by simp [Dict.get?])]; exact hT21, hT22⟩
    · exact ⟨T3, by rw [cell_eq _ _ m rT3 (by simp [Dict.get?])]; exact hT31, hT32⟩
    · exact ⟨T4, by rw [cell_eq _ _ m rT4 (by simp [Dict.get?])]; exact hT41, hT42⟩
  · rw [cell_eq _ _ m (.last rL') (by simp [Dict.get?])]; exact hL1

theorem find_mapIdx {α : Type} (l : List α) (m : ℕ) :
    (l.mapIdx (fun i r => (i, r))).find? (fun r => decide (r.1 = m)) =
      (l[m]?).map (fun r => (m, r)) := by
  induction l using List.reverseRecOn with
  | nil => simp
  | append_singleton l x ih =>
    rw [List.mapIdx_append, List.find?_append, ih]
    by_cases h : m < l.length
    · rw [List.getElem?_append_left h]
      simp [h]
    · rw [List.getElem?_eq_none (by omega : l.length ≤ m), List.getElem?_append_right (by omega)]
      by_cases h' : l.length = m
      · subst h'
        simp
      · have : m - l.length ≠ 0 := by omega
        obtain ⟨j, hj⟩ := Nat.exists_eq_succ_of_ne_zero this
        simp [hj, h']

/-- The value in the summary by rows is the one in the summary by columns. -/
theorem molCell_summary (r : Relx) (hne : r.relax ≠ []) (m : ℕ) (hm : m < r.num)
    (name : String) (x : ℤ) (h : cell r.relax name m = some x) :
    molCell (r.summary.mapIdx (fun i c => (i, c))) m name = some x := by
  unfold molCell
  rw [find_mapIdx]
  have hs : r.summary = (List.range r.num).map (fun m =>
      (Relax.summary r.relax).map (fun c => (c.1, c.2.getD m 0))) := by
    unfold Relx.summary
    split
    · rename_i h0; exact absurd h0 hne
    · rfl
  rw [hs, List.getElem?_map, List.getElem?_range hm]
  simp only [Option.map_some, Option.bind_some]
  unfold cell at h
  have hget : ∀ (d : Dict String (List ℤ)), Dict.get? (d.map (fun c => (c.1, c.2.getD m 0))) name =
      (Dict.get? d name).map (fun l => l.getD m 0) := by
    intro d
    induction d with
    | nil => rfl
    | cons p d ih =>
      simp only [List.map_cons, Dict.get?]
      split
      · rfl
      · exact ih
  rw [hget]
  cases hg : Dict.get? (Relax.summary r.relax) name with
  | none => rw [hg] at h; simp at h
  | some l =>
    rw [hg] at h
    simp only [Option.bind_some] at h
    simp [List.getD, h]

end Verif.Pipeline
