import Verif.Process.Props
import Verif.Relax.Props
/-!
# Property C27: exactly when a custom relaxation is reported as stated
-/

namespace Verif.Process

open Verif.Relax

variable {K : Type} [Field K] [LinearOrder K]

/-- A first passage by displacement, under a name. -/
def passage (name : String) (thr : K) : Def K := ⟨some name, some (some (some thr)), false, none, none⟩

theorem passage_dict (n : Nat) (name : String) (thr : K) (ht : 0 ≤ thr) :
    setMolRelax n [] [passage name thr] = ([(name, .first (First.new n (some thr) .translation))], none) := by
  have hn : flt (some thr) (some 0) = false := by simp [flt, fgt, not_lt.2 ht]
  simp [setMolRelax, passage, setLoop, makeRelax, createMolRelaxation, hn, kindOf, Except.map, Dict.set]

/-- The times of one relaxation over some frames. -/
theorem passage_run (n : Nat) (name : String) (thr : K) (ht : 0 ≤ thr)
    (frames : List (Int × List (Fl K) × List (Fl K))) (hf : ∀ f ∈ frames, f.2.1.length = n ∧ f.2.2.length = n) :
    ∃ l : List Int, Relax.summary (runAll (setMolRelax n [] [passage name thr]).1 frames).1 = [(name, l)] ∧
      l.length = n ∧ ∀ m < n, ∃ s, l[m]? = some s ∧
        IsLeast {x | x = maxValue ∨ ∃ q ∈ frames, Exceeds (q.2.1.getD m none) (some thr) ∧ x = q.1} s := by
  rw [passage_dict n name thr ht]
  obtain ⟨d', h1, h2⟩ := runAll_ok n frames [(name, MolRelax.first (First.new n (some thr) .translation))]
    (by simp [MolRelax.size, First.new]) hf
  obtain ⟨r, hr, hl, hs⟩ := C41_first_passage n (some thr) .translation
    (frames.map (fun f => (f.1, f.2.1))) (by
      intro p hp
      obtain ⟨f, hfm, rfl⟩ := List.mem_map.1 hp
      exact (hf f hfm).1)
  match d', h2 with
  | [p'], .cons hp .nil =>
    obtain ⟨h3, h4⟩ := hp
    rw [MolRelax.run_first] at h4
    have hsel : sel (MolRelax.first (First.new n (some thr) Kind.translation)).kind frames =
        frames.map (fun f => (f.1, f.2.1)) := by
      simp [sel, MolRelax.kind, First.new]
    rw [hsel, hr] at h4
    have hp' : p' = (name, MolRelax.first r) := Prod.ext h3 (Except.ok.inj h4).symm
    refine ⟨r.getStatus, ?_, hl, ?_⟩
    · rw [h1, hp']
      rfl
    · intro m hm
      obtain ⟨s, g1, g2⟩ := hs m hm
      refine ⟨s, g1, ?_⟩
      have : {x | x = maxValue ∨ ∃ q ∈ ofMol m (frames.map (fun f => (f.1, f.2.1))),
          Exceeds q.2 (some thr) ∧ x = q.1} =
          {x | x = maxValue ∨ ∃ q ∈ frames, Exceeds (q.2.1.getD m none) (some thr) ∧ x = q.1} := by
        ext x
        simp only [ofMol, List.map_map, List.mem_map, Function.comp_apply, Set.mem_ofPred_eq]
        refine or_congr_right ⟨?_, ?_⟩
        · rintro ⟨q, ⟨f, hf, rfl⟩, h⟩
          exact ⟨f, hf, h⟩
        · rintro ⟨f, hf, h⟩
          exact ⟨_, ⟨f, hf, rfl⟩, h⟩
      rw [← this]
      exact g2

variable [IsStrictOrderedRing K]

/-- **C27, exactly.**  For a first passage by displacement given as `mol_relaxations`, and frames in the order of
their times: what is reported is the first passage over all frames of the keyframe iff no molecule is beyond the
threshold in a frame other than the last. -/
theorem C27_exactly (dist pi : K) (n : Nat) (name : String) (thr : K) (before : List (MFrame K)) (f g : MFrame K)
    (hd : 0 ≤ dist) (hp : 0 ≤ pi) (ht : 0 ≤ thr)
    (hf : (before ++ [g]).head? = some f)
    (hlen : ∀ x ∈ before ++ [g], x.2.1.length = n ∧ x.2.2.length = n)
    (hinc : ∀ x ∈ before, x.1 < g.1) (hmax : g.1 - f.1 < maxValue) :
    soloSummary (relaxEnv dist pi (some [passage name thr])) (before ++ [g]) =
        allFrames n [passage name thr] f (before ++ [g]).tail ↔
      ∀ x ∈ before, ∀ m < n, ¬ Exceeds (x.2.1.getD m none) (some thr) := by
  have hcons : before ++ [g] = f :: (before ++ [g]).tail := by
    cases hb : before ++ [g] with
    | nil => simp at hb
    | cons y ys =>
      rw [hb] at hf
      obtain rfl := Option.some.inj hf
      rfl
  have hpart := C27_custom_accumulates_partial dist pi n [passage name thr] f (before ++ [g]).tail g hd hp
    (hlen f (by rw [hcons]; simp)).1 (by rw [← hcons]; simp)
  rw [← hcons] at hpart
  rw [hpart]
  unfold allFrames
  rw [← hcons]
  obtain ⟨l, hl, hll, hls⟩ := passage_run n name thr ht [(g.1 - f.1, g.2.1, g.2.2)] (by
    intro x hx
    rw [List.mem_singleton] at hx
    subst hx
    exact hlen g (by simp))
  obtain ⟨l', hl', hll', hls'⟩ := passage_run n name thr ht
    ((before ++ [g]).map (fun g => (g.1 - f.1, g.2.1, g.2.2))) (by
      intro x hx
      obtain ⟨y, hy, rfl⟩ := List.mem_map.1 hx
      exact hlen y hy)
  rw [hl, hl']
  simp only [List.cons.injEq, Prod.mk.injEq, true_and, and_true]
  constructor
  · rintro rfl x hx m hm hex
    obtain ⟨s, h1, h2⟩ := hls m hm
    obtain ⟨s', h1', h2'⟩ := hls' m hm
    rw [h1] at h1'
    obtain rfl := Option.some.inj h1'
    have hle : s ≤ x.1 - f.1 :=
      h2'.2 (Or.inr ⟨(x.1 - f.1, x.2.1, x.2.2), List.mem_map.2 ⟨x, by simp [hx], rfl⟩, hex, rfl⟩)
    have hlt := hinc x hx
    rcases h2.1 with h3 | ⟨q, hq, -, h3⟩
    · omega
    · rw [List.mem_singleton] at hq
      subst hq
      simp only at h3
      omega
  · intro hno
    apply List.ext_getElem?
    intro m
    by_cases hm : m < n
    · obtain ⟨s, h1, h2⟩ := hls m hm
      obtain ⟨s', h1', h2'⟩ := hls' m hm
      rw [h1, h1']
      congr 1
      refine h2.unique ?_
      have hset : {x | x = maxValue ∨ ∃ q ∈ (before ++ [g]).map (fun g => (g.1 - f.1, g.2.1, g.2.2)),
          Exceeds (q.2.1.getD m none) (some thr) ∧ x = q.1} =
          {x | x = maxValue ∨ ∃ q ∈ [((g.1 - f.1, g.2.1, g.2.2) : MFrame K)],
            Exceeds (q.2.1.getD m none) (some thr) ∧ x = q.1} := by
        ext x
        simp only [Set.mem_ofPred_eq, List.mem_map, List.mem_append, List.mem_singleton]
        refine or_congr_right ⟨?_, ?_⟩
        · rintro ⟨q, ⟨y, hy | rfl, rfl⟩, h⟩
          · exact absurd h.1 (hno y hy m hm)
          · exact ⟨_, rfl, h⟩
        · rintro ⟨q, rfl, h⟩
          exact ⟨_, ⟨g, Or.inr rfl, rfl⟩, h⟩
      rw [← hset]
      exact h2'
    · rw [List.getElem?_eq_none (by omega), List.getElem?_eq_none (by omega)]

/-- The three frames of `C27_custom_accumulates_refuted`: the molecule is beyond the threshold in the second. -/
example : soloSummary (relaxEnv (1 : ℚ) 1 (some [passage "tau" 1]))
      ([(0, [some 0], [some 0]), (5, [some 2], [some 0])] ++ [(6, [some 0], [some 0])]) ≠
    allFrames 1 [passage "tau" (1 : ℚ)] (0, [some 0], [some 0]) [(5, [some 2], [some 0]), (6, [some 0], [some 0])] := by
  intro h
  refine (C27_exactly (1 : ℚ) 1 1 "tau" 1 [(0, [some 0], [some 0]), (5, [some 2], [some 0])] (0, [some 0], [some 0])
    (6, [some 0], [some 0]) (by decide) (by decide) (by decide) rfl (by simp) (by simp) (by decide)).1 h
    (5, [some 2], [some 0]) (by simp) 0 (by decide) ⟨2, 1, rfl, rfl, by decide⟩

end Verif.Process
