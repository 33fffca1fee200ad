import Verif.Order.Props
/-!
# Exactly when every readable frame has its line: C85
-/

namespace Verif.Order

open Verif.Motion

/-- All readable frames have a line, and none comes after a frame that cannot be read. -/
def NoneLost (freud : Freud) (frames : List (Option GsdFrame)) : Prop :=
  ∃ (good : List GsdFrame) (k : ℕ), frames = good.map some ++ List.replicate k none ∧
    ∀ f ∈ good, ∃ l, orderLine freud f = .ok l

/-- **C85, in general.**  There is a line for every readable frame, with its step, if and only if all
of them have an order and no readable frame follows a corrupt one; and the run ends without an exception
if and only if moreover there is no corrupt frame at all. -/
theorem C85_none_lost (freud : Freud) (frames : List (Option GsdFrame)) :
    ((orderFile freud frames).1.map Prod.fst = frames.filterMap (Option.map GsdFrame.step) ↔
      NoneLost freud frames) ∧
    ((orderFile freud frames).2 = none ↔ NoneLost freud frames ∧ none ∉ frames) := by
  induction frames with
  | nil => exact ⟨⟨fun _ => ⟨[], 0, rfl, by simp⟩, fun _ => rfl⟩,
      ⟨fun _ => ⟨⟨[], 0, rfl, by simp⟩, by simp⟩, fun _ => rfl⟩⟩
  | cons f frames ih =>
    cases f with
    | none =>
      refine ⟨⟨fun h => ?_, fun h => ?_⟩, ⟨fun h => ?_, fun h => ?_⟩⟩
      · have h' : frames.filterMap (Option.map GsdFrame.step) = [] := by
          simpa [orderFile] using h.symm
        refine ⟨[], frames.length + 1, ?_, by simp⟩
        rw [List.map_nil, List.nil_append, List.replicate_succ, List.cons.injEq]
        refine ⟨rfl, List.eq_replicate_iff.2 ⟨rfl, fun g hg => ?_⟩⟩
        have := List.filterMap_eq_nil_iff.1 h' g hg
        cases g with
        | none => rfl
        | some g => simp at this
      · obtain ⟨good, k, h1, -⟩ := h
        cases good with
        | cons g good => simp at h1
        | nil =>
          rw [h1]
          cases k with
          | zero => simp at h1
          | succ k =>
            rw [List.map_nil, List.nil_append]
            have : (List.replicate (k + 1) (none : Option GsdFrame)).filterMap
                (Option.map GsdFrame.step) = [] := by
              rw [List.filterMap_eq_nil_iff]
              intro a ha
              rw [List.eq_of_mem_replicate ha]
              rfl
            rw [this, List.replicate_succ]
            rfl
      · simp [orderFile] at h
      · simp at h
    | some f =>
      have hcons : NoneLost freud (some f :: frames) ↔
          (∃ l, orderLine freud f = .ok l) ∧ NoneLost freud frames := by
        constructor
        · rintro ⟨good, k, h1, h2⟩
          cases good with
          | nil =>
            cases k with
            | zero => simp at h1
            | succ k => simp [List.replicate_succ] at h1
          | cons g good =>
            simp only [List.map_cons, List.cons_append, List.cons.injEq, Option.some.injEq] at h1
            obtain ⟨rfl, h1⟩ := h1
            exact ⟨h2 _ List.mem_cons_self, good, k, h1, fun x hx => h2 x (List.mem_cons_of_mem _ hx)⟩
        · rintro ⟨hl, good, k, rfl, h2⟩
          exact ⟨f :: good, k, rfl, fun x hx => by
            rcases List.mem_cons.1 hx with rfl | hx
            · exact hl
            · exact h2 x hx⟩
      rw [hcons, orderFile]
      cases h : orderLine freud f with
      | error e =>
        simp
      | ok l =>
        have hstep : l.1 = f.step := (C85_fraction freud f l h).1
        simp only [Except.ok.injEq, exists_eq', true_and, List.map_cons, List.filterMap_cons,
          Option.map_some, List.cons.injEq, hstep, List.mem_cons, reduceCtorEq, false_or]
        exact ih

/-- **C85, exactly.**  With a correct search and frames of one unit orientation per position, every
readable frame gets its line if and only if each of them has a particle and none comes after a corrupt
frame. -/
theorem C85_exactly (freud : Freud) (hf : freud.Correct) (frames : List (Option GsdFrame))
    (hgood : ∀ f, some f ∈ frames → 3 ≤ f.box.length ∧ f.position.length = f.orientation.length ∧
      f.orientation.length ≤ missing ∧ AllUnit f.orientation) :
    (orderFile freud frames).1.map Prod.fst = frames.filterMap (Option.map GsdFrame.step) ↔
      (∀ f, some f ∈ frames → f.position ≠ []) ∧
      ∀ i j : ℕ, i < j → frames[i]? = some none → ∀ f, frames[j]? ≠ some (some f) := by
  rw [(C85_none_lost freud frames).1]
  constructor
  · rintro ⟨good, k, rfl, h2⟩
    constructor
    · intro f hfm
      have hm : f ∈ good := by
        rcases List.mem_append.1 hfm with h | h
        · simpa using h
        · exact absurd (List.eq_of_mem_replicate h) (by simp)
      intro hp
      obtain ⟨hb, hlen, -, -⟩ := hgood f hfm
      obtain ⟨l, hl⟩ := h2 f hm
      have ho : f.orientation = [] := by
        rw [← List.length_eq_zero_iff, ← hlen, hp]; rfl
      have := (C85_empty freud hf f hb hp ho []).1
      rw [this] at hl
      cases hl
    · intro i j hij hi f hj
      have hi' : good.length ≤ i := by
        by_contra hlt
        rw [List.getElem?_append_left (by simpa using hlt)] at hi
        simp only [List.getElem?_map, Option.map_eq_some_iff] at hi
        obtain ⟨_, _, h⟩ := hi
        cases h
      rw [List.getElem?_append_right (by simpa using by omega)] at hj
      have := List.mem_of_getElem? hj
      exact absurd (List.eq_of_mem_replicate this) (by simp)
  · rintro ⟨h1, h2⟩
    have hl : ∀ f, some f ∈ frames → ∃ l, orderLine freud f = .ok l := by
      intro f hfm
      obtain ⟨hb, hlen, hs, hu⟩ := hgood f hfm
      refine C85_succeeds freud hf f hb hlen hs hu ?_
      intro ho
      apply h1 f hfm
      rw [← List.length_eq_zero_iff, hlen, ho]; rfl
    clear hgood h1
    induction frames with
    | nil => exact ⟨[], 0, rfl, by simp⟩
    | cons f frames ih =>
      cases f with
      | none =>
        refine ⟨[], frames.length + 1, ?_, by simp⟩
        rw [List.map_nil, List.nil_append, List.replicate_succ, List.cons.injEq]
        refine ⟨rfl, List.eq_replicate_iff.2 ⟨rfl, fun g hg => ?_⟩⟩
        obtain ⟨j, hj⟩ := List.getElem?_of_mem hg
        cases g with
        | none => rfl
        | some g => exact absurd (by simpa using hj) (h2 0 (j + 1) (by omega) rfl g)
      | some f =>
        obtain ⟨good, k, rfl, hg⟩ := ih (fun i j hij hi g hj => h2 (i + 1) (j + 1) (by omega)
            (by simpa using hi) g (by simpa using hj))
          (fun g hg => hl g (List.mem_cons_of_mem _ hg))
        exact ⟨f :: good, k, rfl, fun x hx => by
          rcases List.mem_cons.1 hx with rfl | hx
          · exact hl _ List.mem_cons_self
          · exact hg x hx⟩

/-- A corrupt frame at the end loses nothing, one in front of a good frame loses it. -/
example : (orderFile refFreud [some ⟨4, [9, 9, 9], [0, 0, 0], sampleO⟩, none]).1.map Prod.fst = [4] ∧
    (orderFile refFreud [none, some ⟨4, [9, 9, 9], [0, 0, 0], sampleO⟩]).1.map Prod.fst ≠ [4] := by
  have hg : ∀ f, f = (⟨4, [9, 9, 9], [0, 0, 0], sampleO⟩ : GsdFrame) → 3 ≤ f.box.length ∧
      f.position.length = f.orientation.length ∧ f.orientation.length ≤ missing ∧
      AllUnit f.orientation := by
    rintro f rfl
    exact ⟨by simp, by simp [sampleO], by simp [sampleO, missing], sampleO_unit⟩
  constructor
  · refine (C85_exactly refFreud refFreud_correct _ ?_).2 ⟨?_, ?_⟩
    · intro f hf; exact hg f (by simpa using hf)
    · intro f hf
      have : f = (⟨4, [9, 9, 9], [0, 0, 0], sampleO⟩ : GsdFrame) := by simpa using hf
      rw [this]; simp
    · intro i j hij hi f hj
      have hj' : j < 2 := (List.getElem?_eq_some_iff.1 hj).1
      obtain rfl : i = 0 := by omega
      simp at hi
  · intro h
    have := (C85_exactly refFreud refFreud_correct [none, some ⟨4, [9, 9, 9], [0, 0, 0], sampleO⟩] (by
      intro f hf; exact hg f (by simpa using hf))).1 h
    exact this.2 0 1 (by omega) rfl _ rfl

end Verif.Order
