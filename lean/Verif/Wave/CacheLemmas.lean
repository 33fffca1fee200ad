import Verif.Wave.CacheSpec
/-!
# Lemmas about the cached wave vectors
-/

namespace Verif.Wave

open Verif.Dynamics (createWaveVector)

/-- The arrays kept for `(k, n)` are right, and all entries name arrays. -/
def Good (k : ℝ) (n : ℕ) (s : Lru) : Prop :=
  (∀ e ∈ s.entries, e.2 < s.arrays.length) ∧
    ∀ a, ((k, (n : ℝ)), a) ∈ s.entries → s.arrays[a]? = some (createWaveVector k n)

theorem waveVectorBody_nat (k : ℝ) (n : ℕ) :
    waveVectorBody k (.int n) = .ok (createWaveVector k n) := by
  have h0 : ¬ ((n : ℤ) < 0) := by omega
  simp only [waveVectorBody, if_neg h0, Int.toNat_natCast]

theorem waveVectorBody_float (k x : ℝ) : waveVectorBody k (.float x) = .error .typeError := rfl

theorem good_call (k : ℝ) (n : ℕ) (s : Lru) (h : Good k n s) (k' : ℝ) (r : Res) :
    Good k n (s.call k' r).1 := by
  unfold Lru.call
  cases hf : s.entries.find? (fun e => decide (e.1 = (k', r.value))) with
  | some e =>
    have he := List.mem_of_find?_eq_some hf
    have hsub : ∀ e', e' ∈ e :: s.entries.filter (fun e' => decide (e'.1 ≠ e.1)) → e' ∈ s.entries := by
      intro e' he'
      rcases List.mem_cons.1 he' with rfl | he'
      · exact he
      · exact (List.mem_filter.1 he').1
    exact ⟨fun e' he' => h.1 e' (hsub e' he'), fun a ha => h.2 a (hsub _ ha)⟩
  | none =>
    cases hb : waveVectorBody k' r with
    | error e => exact h
    | ok v =>
      constructor
      · intro e he
        have he := List.mem_of_mem_take he
        simp only [List.length_append, List.length_singleton]
        rcases List.mem_cons.1 he with rfl | he
        · simp
        · have := h.1 e he
          omega
      · intro a ha
        have ha := List.mem_of_mem_take ha
        rcases List.mem_cons.1 ha with e | ha
        · simp only [Prod.mk.injEq] at e
          obtain ⟨⟨rfl, hr⟩, rfl⟩ := e
          cases r with
          | float x => simp [waveVectorBody] at hb
          | int m =>
            have hm : m = (n : ℤ) := by
              have : ((n : ℤ) : ℝ) = (m : ℝ) := by simpa [Res.value] using hr
              exact_mod_cast this.symm
            subst hm
            rw [waveVectorBody_nat, Except.ok.injEq] at hb
            simp [hb]
        · have := h.1 _ ha
          simp only
          rw [List.getElem?_append_left this]
          exact h.2 a ha

theorem good_write (k : ℝ) (n : ℕ) (s : Lru) (h : Good k n s) (a : Nat) (v : List (ℝ × ℝ))
    (ha : ((k, (n : ℝ)), a) ∉ s.entries) : Good k n (s.step (.write a v)) := by
  constructor
  · intro e he
    simpa [Lru.step] using h.1 e he
  · intro a' ha'
    have hne : a ≠ a' := by
      rintro rfl
      exact ha ha'
    simp only [Lru.step]
    rw [List.getElem?_set_ne hne]
    exact h.2 a' ha'

theorem good_run (k : ℝ) (n : ℕ) (ops : List Op) : ∀ s, Good k n s → Spares k n s ops →
    Good k n (s.run ops) := by
  induction ops with
  | nil => intro s h _; exact h
  | cons op ops ih =>
    intro s h hs
    cases op with
    | call k' r => exact ih _ (good_call k n s h k' r) hs
    | write a v => exact ih _ (good_write k n s h a v hs.1) hs.2

theorem good_empty (k : ℝ) (n : ℕ) : Good k n .empty := by
  constructor <;> simp [Lru.empty]

/-- With a good cache the right array is returned. -/
theorem result_good (k : ℝ) (n : ℕ) (s : Lru) (h : Good k n s) :
    s.result k (.int n) = .ok (some (createWaveVector k n)) := by
  have hg := good_call k n s h k (.int n)
  unfold Lru.result
  have : ∃ a, (s.call k (.int n)).2 = .ok a ∧ ((k, (n : ℝ)), a) ∈ (s.call k (.int n)).1.entries := by
    unfold Lru.call
    cases hf : s.entries.find? (fun e => decide (e.1 = (k, (Res.int n).value))) with
    | some e =>
      have he : e.1 = (k, (Res.int n).value) := by simpa using List.find?_some hf
      refine ⟨e.2, rfl, ?_⟩
      have : ((k, (n : ℝ)), e.2) = e := by
        rw [← Prod.eta e, he]
        simp [Res.value]
      rw [this]
      exact List.mem_cons_self
    | none =>
      rw [waveVectorBody_nat]
      exact ⟨_, rfl, by simp [Res.value]⟩
  obtain ⟨a, ha, hm⟩ := this
  rw [ha]
  simp only [Except.map]
  rw [hg.2 a hm]

theorem spread_createWaveVector (k : ℝ) (n : ℕ) : EvenlySpread k n (createWaveVector k n) := by
  refine ⟨by simp [createWaveVector], ?_⟩
  intro j hj
  have : (j : ℝ) * (2 * Real.pi / n) = 2 * Real.pi * j / n := by ring
  simp [createWaveVector, List.getElem?_range hj, this]

end Verif.Wave
