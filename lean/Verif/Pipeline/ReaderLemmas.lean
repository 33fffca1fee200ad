import Verif.Gsd.Props
import Verif.Pipeline.RunLemmas
/-!
# The frames that the gsd readers hand to a keyframe
-/

namespace Verif.Pipeline

open Verif.Motion Verif.Dynamics Verif.Relax Verif.Gsd Verif.Process Verif.Cache

open scoped List

theorem getD_lt {α : Type} (l : List α) (d : α) {i : ℕ} (h : i < l.length) : l.getD i d = l[i] := by
  rw [List.getD_eq_getElem?_getD, List.getElem?_eq_getElem h]
  rfl

theorem framesOf_append {ι Φ : Type} [DecidableEq ι] (k : ι) (a b : List (ι × Φ)) :
    framesOf k (a ++ b) = framesOf k a ++ framesOf k b := by
  simp [framesOf, List.filterMap_append]

theorem framesOf_const {ι Φ : Type} [DecidableEq ι] (k : ι) (f : Φ) : ∀ l : List ι, l.Nodup →
    framesOf k (l.map (fun j => (j, f))) = if k ∈ l then [f] else []
  | [], _ => by simp [framesOf]
  | j :: l, h => by
    rw [List.nodup_cons] at h
    have ih := framesOf_const k f l h.2
    unfold framesOf at ih ⊢
    by_cases hj : j = k
    · subst hj
      rw [List.map_cons, List.filterMap_cons]
      simp [ih, h.1]
    · have hj' : ¬ k = j := fun h => hj h.symm
      rw [List.map_cons, List.filterMap_cons]
      simp [ih, hj, hj']

open Classical in
/-- The frames of a keyframe, when no index is given twice with a frame. -/
theorem framesOf_visits {ι Φ D R ρ σ ν : Type} [DecidableEq ι] (E : Env Φ D R ρ σ ν) (k : ι) :
    ∀ pairs : List (List ι × Φ), (∀ p ∈ pairs, p.1.Nodup) →
    framesOf k (visitsOf E pairs) =
      pairs.filterMap (fun p => if E.numPos p.2 ≠ 0 ∧ k ∈ p.1 then some p.2 else none)
  | [], _ => rfl
  | p :: pairs, h => by
    have ih := framesOf_visits E k pairs (fun q hq => h q (by simp [hq]))
    unfold visitsOf at ih ⊢
    rw [List.flatMap_cons, framesOf_append, ih, List.filterMap_cons]
    by_cases h0 : E.numPos p.2 = 0
    · simp [h0, framesOf]
    · rw [if_neg h0, framesOf_const k p.2 p.1 (h p (by simp))]
      by_cases hk : k ∈ p.1 <;> simp [hk, h0]

open Classical in
/-- The same when membership of the index is a property of the frame. -/
theorem framesOf_filter {ι Φ D R ρ σ ν : Type} [DecidableEq ι] (E : Env Φ D R ρ σ ν) (k : ι)
    (pairs : List (List ι × Φ)) (h : ∀ p ∈ pairs, p.1.Nodup) (P : Φ → Prop)
    (hP : ∀ p ∈ pairs, k ∈ p.1 ↔ P p.2) :
    framesOf k (visitsOf E pairs) =
      (pairs.map Prod.snd).filter (fun f => decide (E.numPos f ≠ 0 ∧ P f)) := by
  rw [framesOf_visits E k pairs h, List.filter_map, ← List.filterMap_eq_map, ← List.filterMap_eq_filter,
    List.filterMap_filterMap]
  apply List.filterMap_congr
  intro p hp
  have := hP p hp
  by_cases h0 : E.numPos p.2 = 0
  · simp [h0, Option.guard]
  · by_cases h1 : P p.2
    · simp [h0, h1, this.2 h1, Option.guard]
    · have : k ∉ p.1 := fun h => h1 (this.1 h)
      simp [h0, h1, this, Option.guard]

/-- A list of frames of the same number of molecules as a trajectory. -/
theorem exists_gframes {N : ℕ} (L : List (GFrame PData)) (hne : L ≠ [])
    (h : ∀ f ∈ L, f.data.position.length = N ∧ ∀ q, f.data.orientation = some q →
      q.length = N ∧ ∀ x ∈ q, Quaternion.normSq x = 1) :
    ∃ (t : ℕ → ℤ) (box : ℕ → List ℝ) (s : ℕ → Fin N → V3) (o : ℕ → Option (Fin N → Quat)),
      Motion.Unit o ∧ L = gframes t box s o (L.length - 1) := by
  obtain ⟨f0, hf0⟩ := List.exists_mem_of_ne_nil L hne
  have hmem : ∀ i, L.getD i f0 ∈ L := by
    intro i
    rw [List.getD_eq_getElem?_getD]
    rcases Nat.lt_or_ge i L.length with hi | hi
    · rw [List.getElem?_eq_getElem hi]
      exact List.getElem_mem hi
    · rw [List.getElem?_eq_none hi]
      exact hf0
  refine ⟨fun i => (L.getD i f0).timestep, fun i => (L.getD i f0).data.box,
    fun i m => (L.getD i f0).data.position.getD m 0,
    fun i => (L.getD i f0).data.orientation.map (fun q m => q.getD m 1), ?_, ?_⟩
  · intro i q hq m
    simp only [Option.map_eq_some_iff] at hq
    obtain ⟨l, hl, rfl⟩ := hq
    obtain ⟨h1, h2⟩ := (h _ (hmem i)).2 l hl
    apply h2
    show l.getD m 1 ∈ l
    rw [getD_lt _ _ (by rw [h1]; exact m.2)]
    exact List.getElem_mem _
  · have hpos : 0 < L.length := List.length_pos_iff.2 hne
    unfold gframes
    rw [Nat.sub_add_cancel hpos]
    apply List.ext_getElem
    · simp
    · intro i h1 h2
      rw [List.getElem_map, List.getElem_range]
      have e : L.getD i f0 = L[i] := getD_lt _ _ h1
      unfold gf
      simp only [e]
      have hf := h _ (List.getElem_mem h1)
      generalize L[i] = f at hf ⊢
      obtain ⟨t, b, p, q⟩ := f
      have ofn : ∀ {α : Type} (l : List α) (d : α), l.length = N → List.ofFn (fun m : Fin N => l.getD m d) = l := by
        intro α l d hl
        subst hl
        apply List.ext_getElem
        · simp
        · intro j g1 g2
          rw [List.getElem_ofFn]
          exact getD_lt _ _ g2
      simp only at hf ⊢
      rw [ofn p 0 hf.1]
      cases q with
      | none => rfl
      | some l =>
        simp only [Option.map_some]
        rw [ofn l 1 (hf.2 l rfl).1]

/-- The yields of the main loop for a file that goes on. -/
theorem exp_prefix {α : Type} (m : Int) (fe : Option PyErr) (more : List (GFrame α)) :
    ∀ (fs : List (GFrame α)),
    (∀ ss, (expReader m none fs ss).1 <+: (expReader m fe (fs ++ more) ss).1) ∧
    (∀ cur ss, (catchFrames m none cur fs ss).1 <+: (catchFrames m fe cur (fs ++ more) ss).1) := by
  have hemit : ∀ (cur : Int × List Nat) (f : GFrame α) (x y : List (List Nat × GFrame α) × Option PyErr),
      x.1 <+: y.1 → (emit m cur f x).1 <+: (emit m cur f y).1 := by
    intro cur f x y h
    unfold emit
    split
    · exact List.prefix_rfl
    · split
      · exact (List.prefix_cons_inj _).2 h
      · exact h
  intro fs
  induction fs with
  | nil =>
    constructor
    · intro ss; simp [expReader]
    · intro cur ss; simp [catchFrames]
  | cons f fs ih =>
    constructor
    · intro ss
      cases ss with
      | nil => simp [expReader]
      | cons cur ss =>
        rw [List.cons_append, expReader, expReader]
        split
        · exact ih.2 cur ss
        · split
          · cases catchSteps f.timestep cur ss with
            | none => exact List.prefix_rfl
            | some c => exact hemit _ _ _ _ (ih.1 c.2)
          · exact hemit _ _ _ _ (ih.1 ss)
    · intro cur ss
      rw [List.cons_append, catchFrames, catchFrames]
      split
      · exact ih.2 cur ss
      · exact hemit _ _ _ _ (ih.1 ss)

theorem linear_prefix {α : Type} (stepsMax : Option Int) (interval kmax : Int) (fe : Option PyErr)
    (more : List (GFrame α)) : ∀ (fs : List (GFrame α)) (il : List Nat),
    (linearReader stepsMax interval kmax none fs il).1 <+:
      (linearReader stepsMax interval kmax fe (fs ++ more) il).1 := by
  intro fs
  induction fs with
  | nil => intro il; simp [linearReader]
  | cons f fs ih =>
    intro il
    rw [List.cons_append, linearReader, linearReader]
    split
    · exact List.prefix_rfl
    · dsimp only
      split
      · exact List.prefix_rfl
      · exact (List.prefix_cons_inj _).2 (ih _)

theorem iter_append {α : Type} (raws more : List (Raw α)) (hc : OnlyCorrupt raws) :
    (iterTrajectory (raws ++ more)).1 = readable raws ++ (iterTrajectory more).1 := by
  induction raws with
  | nil => rfl
  | cons r raws ih =>
    have ih := ih (fun x hx => hc x (by simp [hx]))
    cases r with
    | ok f =>
      rw [List.cons_append, iterTrajectory]
      simp only [ih]
      rfl
    | error e =>
      obtain rfl := hc (.error e) (by simp) e rfl
      rw [List.cons_append, iterTrajectory, ih]
      rfl

theorem expected_append {ι Φ D R ρ σ ν : Type} [DecidableEq ι] (E : Env Φ D R ρ σ ν) :
    ∀ (vs ws past : List (ι × Φ)),
    expected E past (vs ++ ws) = expected E past vs ++ expected E (past ++ vs) ws
  | [], ws, past => by simp [expected]
  | v :: vs, ws, past => by
    obtain ⟨k, f⟩ := v
    rw [List.cons_append, expected, expected, expected_append E vs ws, List.append_assoc,
      List.append_assoc]
    rfl

end Verif.Pipeline
