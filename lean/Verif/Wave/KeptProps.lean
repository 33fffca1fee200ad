import Verif.Wave.CacheProps
/-!
# Property C143: exactly when a cached call returns what it should
-/

namespace Verif.Wave

open Verif.Dynamics (createWaveVector)

/-- No arguments are kept twice, and what is kept is there. -/
def Tidy (s : Lru) : Prop :=
  (s.entries.map Prod.fst).Nodup ∧ ∀ e ∈ s.entries, e.2 < s.arrays.length

theorem tidy_step (s : Lru) (h : Tidy s) : ∀ op : Op, Tidy (s.step op)
  | .write a v => ⟨h.1, fun e he => by simpa [Lru.step] using h.2 e he⟩
  | .call k r => by
    unfold Lru.step Lru.call
    simp only
    cases hf : s.entries.find? (fun e => decide (e.1 = (k, r.value))) with
    | some e =>
      have he := List.mem_of_find?_eq_some hf
      refine ⟨?_, ?_⟩
      · simp only [List.map_cons, List.nodup_cons]
        refine ⟨?_, h.1.sublist (List.filter_sublist.map _)⟩
        intro hm
        obtain ⟨e', he', h1⟩ := List.mem_map.1 hm
        rw [List.mem_filter] at he'
        simp [h1] at he'
      · intro e' he'
        rcases List.mem_cons.1 he' with rfl | he'
        · exact h.2 _ he
        · exact h.2 _ (List.mem_filter.1 he').1
    | none =>
      simp only
      cases waveVectorBody k r with
      | error e => exact h
      | ok v =>
        refine ⟨?_, ?_⟩
        · refine List.Nodup.sublist ((List.take_sublist 128 _).map _) ?_
          simp only [List.map_cons, List.nodup_cons]
          refine ⟨?_, h.1⟩
          intro hm
          obtain ⟨e', he', h1⟩ := List.mem_map.1 hm
          have := List.find?_eq_none.1 hf e' he'
          simp [h1] at this
        · intro e' he'
          simp only [List.length_append, List.length_singleton]
          rcases List.mem_cons.1 (List.mem_of_mem_take he') with rfl | he'
          · simp
          · have := h.2 _ he'
            omega

theorem tidy_run (ops : List Op) : ∀ s, Tidy s → Tidy (s.run ops) := by
  induction ops with
  | nil => intro s h; exact h
  | cons op ops ih => intro s h; exact ih _ (tidy_step s h op)

theorem kept_unique {s : Lru} (h : Tidy s) {key : ℝ × ℝ} {a b : ℕ} (ha : (key, a) ∈ s.entries)
    (hb : (key, b) ∈ s.entries) : a = b := by
  have := List.inj_on_of_nodup_map h.1 ha hb rfl
  exact (Prod.mk.inj this).2

/-- What a call returns: the array kept for the arguments, as it is now, or a new one. -/
theorem result_eq {s : Lru} (h : Tidy s) (k : ℝ) (r : Res) :
    (∀ a, ((k, r.value), a) ∈ s.entries → s.result k r = .ok s.arrays[a]?) ∧
    ((∀ a, ((k, r.value), a) ∉ s.entries) → s.result k r = (waveVectorBody k r).map some) := by
  unfold Lru.result Lru.call
  cases hf : s.entries.find? (fun e => decide (e.1 = (k, r.value))) with
  | some e =>
    have he := List.mem_of_find?_eq_some hf
    have hk : e.1 = (k, r.value) := by simpa using List.find?_some hf
    have he' : ((k, r.value), e.2) ∈ s.entries := by rw [← hk]; exact he
    refine ⟨?_, fun hno => absurd he' (hno _)⟩
    intro a ha
    rw [kept_unique h ha he']
    rfl
  | none =>
    refine ⟨?_, ?_⟩
    · intro a ha
      have := List.find?_eq_none.1 hf _ ha
      simp at this
    · intro _
      simp only
      cases waveVectorBody k r with
      | error e => rfl
      | ok v => simp [Except.map]

/-- **C143, exactly.**  After any operations, `create_wave_vector(k, n)` returns `n` vectors of length `k`, evenly
spread, iff the array kept for these arguments, if there is one, is still what it was made to be. -/
theorem C143_exactly (k : ℝ) (n : ℕ) (ops : List Op) :
    (∃ v, (Lru.empty.run ops).result k (.int n) = .ok (some v) ∧ EvenlySpread k n v) ↔
      ∀ a, ((k, (n : ℝ)), a) ∈ (Lru.empty.run ops).entries →
        ∃ v, (Lru.empty.run ops).arrays[a]? = some v ∧ EvenlySpread k n v := by
  have ht : Tidy (Lru.empty.run ops) := tidy_run ops _ ⟨by simp [Lru.empty], by simp [Lru.empty]⟩
  obtain ⟨h1, h2⟩ := result_eq ht k (.int n)
  have hv : (Res.int n).value = (n : ℝ) := by simp [Res.value]
  rw [hv] at h1 h2
  constructor
  · rintro ⟨v, hr, hs⟩ a ha
    rw [h1 a ha] at hr
    exact ⟨v, Except.ok.inj hr, hs⟩
  · intro h
    by_cases hex : ∃ a, ((k, (n : ℝ)), a) ∈ (Lru.empty.run ops).entries
    · obtain ⟨a, ha⟩ := hex
      obtain ⟨v, hv, hs⟩ := h a ha
      exact ⟨v, by rw [h1 a ha, hv], hs⟩
    · rw [not_exists] at hex
      refine ⟨createWaveVector k n, ?_, spread_createWaveVector k n⟩
      rw [h2 hex, waveVectorBody_nat]
      rfl

/-- After a call and a change of the array that was returned, that array is kept, and is not what it was. -/
example (v : List (ℝ × ℝ)) :
    ((1, ((4 : ℕ) : ℝ)), 0) ∈ (Lru.empty.run [.call 1 (.int (4 : ℕ)), .write 0 v]).entries ∧
    (Lru.empty.run [.call 1 (.int (4 : ℕ)), .write 0 v]).arrays[0]? = some v := by
  simp [Lru.run, Lru.step, Lru.call, Lru.empty, waveVectorBody, Res.value]

/-- **C143, floats, exactly.**  A resolution that is a `float` is refused iff no array is kept for the same numbers. -/
theorem C143_float_exactly (k x : ℝ) (ops : List Op) :
    (Lru.empty.run ops).result k (.float x) = .error .typeError ↔
      ∀ a, ((k, x), a) ∉ (Lru.empty.run ops).entries := by
  have ht : Tidy (Lru.empty.run ops) := tidy_run ops _ ⟨by simp [Lru.empty], by simp [Lru.empty]⟩
  obtain ⟨h1, h2⟩ := result_eq ht k (.float x)
  constructor
  · intro h a ha
    rw [h1 a ha] at h
    cases h
  · intro h
    rw [h2 h]
    rfl

/-- Before any call nothing is kept, after `create_wave_vector(1, 4)` the array for 4 is. -/
example : (∀ a, (((1 : ℝ), ((4 : ℕ) : ℝ)), a) ∉ (Lru.empty.run []).entries) ∧
    ((1, ((4 : ℕ) : ℝ)), 0) ∈ (Lru.empty.run [.call 1 (.int (4 : ℕ))]).entries := by
  simp [Lru.run, Lru.step, Lru.call, Lru.empty, waveVectorBody, Res.value]

end Verif.Wave
