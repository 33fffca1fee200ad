import Verif.Wave.CacheLemmas
/-!
# C143: the cached wave vectors
-/

namespace Verif.Wave

open Verif.Dynamics (createWaveVector)

/-- **C143 (partial).** The full statement: whatever has been done before with `create_wave_vector` and
the arrays it returned, `create_wave_vector(k, n)` returns `n` vectors of length `k`, evenly spread.
Proved if no array was changed while it was the one kept for `(k, n)`, so in particular if no
array returned for these arguments is ever changed. -/
theorem C143_spared_partial (k : ℝ) (n : ℕ) (ops : List Op) (h : Spares k n .empty ops) :
    ∃ v, (Lru.empty.run ops).result k (.int n) = .ok (some v) ∧ EvenlySpread k n v :=
  ⟨_, result_good k n _ (good_run k n ops _ (good_empty k n) h), spread_createWaveVector k n⟩

/-- **C143 (partial).** After any number of calls, more than the cache can hold or not, with any
arguments, good or bad. -/
theorem C143_calls_partial (k : ℝ) (n : ℕ) (ops : List Op) (h : ∀ op ∈ ops, op.IsCall) :
    ∃ v, (Lru.empty.run ops).result k (.int n) = .ok (some v) ∧ EvenlySpread k n v := by
  apply C143_spared_partial
  generalize Lru.empty = s
  induction ops generalizing s with
  | nil => trivial
  | cons op ops ih =>
    cases op with
    | call k' r => exact ih (fun op hop => h op (List.mem_cons_of_mem _ hop)) _
    | write a v => exact absurd (h _ List.mem_cons_self) (by simp [Op.IsCall])

/-- **C143.** The cache never has more than 128 entries. -/
theorem C143_size (ops : List Op) : (Lru.empty.run ops).entries.length ≤ 128 := by
  have : ∀ s : Lru, s.entries.length ≤ 128 → (s.run ops).entries.length ≤ 128 := by
    induction ops with
    | nil => intro s hs; exact hs
    | cons op ops ih =>
      intro s hs
      apply ih
      cases op with
      | write a v => exact hs
      | call k r =>
        simp only [Lru.step, Lru.call]
        cases hf : s.entries.find? (fun e => decide (e.1 = (k, r.value))) with
        | some e =>
          have he := List.mem_of_find?_eq_some hf
          have : (s.entries.filter (fun e' => decide (e'.1 ≠ e.1))).length < s.entries.length := by
            rw [List.length_filter_lt_length_iff_exists]
            exact ⟨e, he, by simp⟩
          simp only [List.length_cons]
          omega
        | none =>
          simp only
          cases waveVectorBody k r with
          | error e => exact hs
          | ok v => simp
  exact this _ (by simp [Lru.empty])

/-- The hypotheses can be met: an array for other arguments is changed. -/
example : Spares 1 4 .empty [.call 2 (.int 4), .write 0 []] ∧
    (∀ op ∈ [Op.call 2 (.int 4), .call 1 (.float 4)], op.IsCall) := by
  constructor
  · simp [Spares, Lru.step, Lru.call, Lru.empty, waveVectorBody]
  · intro op hop
    simp at hop
    rcases hop with rfl | rfl <;> trivial

/-- **C143 is false** when a caller changes the array it got: the next call with the same arguments
returns the changed array. -/
theorem C143_write_refuted (k : ℝ) (n : ℕ) (v : List (ℝ × ℝ)) :
    ((Lru.empty.run [.call k (.int n), .write 0 v]).result k (.int n)) = .ok (some v) := by
  simp [Lru.run, Lru.step, Lru.call, Lru.empty, waveVectorBody_nat, Lru.result,
    Except.map, Res.value]

/-- **C143.** Whether a resolution that is a `float` is refused depends on what was called before. -/
theorem C143_float_refuted (k : ℝ) (n : ℕ) :
    Lru.empty.result k (.float n) = .error .typeError ∧
      (Lru.empty.run [.call k (.int n)]).result k (.float n) =
        .ok (some (createWaveVector k n)) := by
  constructor <;>
  simp [Lru.run, Lru.step, Lru.call, Lru.empty, waveVectorBody_nat, waveVectorBody_float, Lru.result,
    Except.map, Res.value]

end Verif.Wave
