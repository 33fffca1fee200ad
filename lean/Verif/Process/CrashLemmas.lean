import Verif.Process.Lemmas
/-!
# What is in the file before the last flush
-/

namespace Verif.Process

open Verif.Cache

theorem append_flushes {β : Type} (c : WriteCache β) (f : File β) (x : β) (h1 : c.hasFile = true)
    (h2 : c.group = some "dynamics") (h3 : c.cache ≠ []) (h4 : (c.cache.length : Int) = c.size) :
    c.append f x = (({ c with toAppend := true, cache := [x], emptied := c.emptied + 1 },
      toHdfTable f "dynamics" c.cache c.toAppend), none) := by
  simp [WriteCache.append, WriteCache.flush, h1, h2, h3, h4]

theorem append_keeps {β : Type} (c : WriteCache β) (f : File β) (x : β)
    (h : (c.cache.length : Int) ≠ c.size) :
    c.append f x = (({ c with cache := c.cache ++ [x] }, f), none) := by
  simp [WriteCache.append, h]

theorem appends_full {β : Type} (f : File β) (l : List β) (hl : l ≠ []) :
    ∃ f', runOps (l.map .append) (fresh "dynamics" 1 false, f) =
      ((⟨true, some "dynamics", 1, decide (8192 < l.length), l.drop (8192 * ((l.length - 1) / 8192)), 8192,
        (((l.length - 1) / 8192 : ℕ) : Int)⟩, f'), none) ∧
      (l.length ≤ 8192 → f' = f) ∧
      (8192 < l.length → rows f' "dynamics" = l.take (8192 * ((l.length - 1) / 8192))) ∧
      ∀ g, g ≠ "dynamics" → Dict.get? f' g = Dict.get? f g := by
  induction l using List.reverseRecOn with
  | nil => exact absurd rfl hl
  | append_singleton l x ih =>
    by_cases hl0 : l = []
    · subst hl0
      refine ⟨f, ?_, fun _ => rfl, by simp, fun _ _ => rfl⟩
      simp [runOps, Op.run, WriteCache.append, fresh]
    · obtain ⟨f', h1, h2, h3, h4⟩ := ih hl0
      have hpos : 0 < l.length := List.length_pos_iff.2 hl0
      obtain ⟨q, r, hq, hr⟩ : ∃ q r, l.length - 1 = 8192 * q + r ∧ r < 8192 :=
        ⟨(l.length - 1) / 8192, (l.length - 1) % 8192, (Nat.div_add_mod _ _).symm, Nat.mod_lt _ (by norm_num)⟩
      have hq' : (l.length - 1) / 8192 = q := by omega
      rw [hq'] at h1 h3
      have hdl : (l.drop (8192 * q)).length = r + 1 := by rw [List.length_drop]; omega
      have hne : l.drop (8192 * q) ≠ [] := by intro h; rw [h] at hdl; simp at hdl
      have hemp : (l.drop (8192 * q)).isEmpty = false := by simpa using hne
      by_cases hfull : r = 8191
      · have hlen : l.length = 8192 * (q + 1) := by omega
        have hn : ((l ++ [x]).length - 1) / 8192 = q + 1 := by simp; omega
        rw [hn]
        refine ⟨toHdfTable f' "dynamics" (l.drop (8192 * q)) (decide (8192 < l.length)), ?_, ?_, ?_, ?_⟩
        · rw [List.map_append, runOps_append, h1]
          simp only [List.map_cons, List.map_nil, runOps, Op.run]
          rw [append_flushes _ _ _ rfl rfl hne (by simp only [WriteCache.size]; rw [hdl, hfull]; rfl)]
          have e1 : (l ++ [x]).drop (8192 * (q + 1)) = [x] := by
            rw [List.drop_append_of_le_length (by omega), ← hlen, List.drop_length]; rfl
          have e2 : decide (8192 < (l ++ [x]).length) = true := by simp; omega
          rw [e1, e2]
          simp
        · intro h; simp at h; omega
        · intro _
          have e1 : (l ++ [x]).take (8192 * (q + 1)) = l := by
            rw [← hlen]; simp
          rw [e1]
          simp only [toHdfTable, hemp, Bool.false_eq_true, if_false]
          by_cases hbig : 8192 < l.length
          · rw [if_pos (by simpa using hbig), rows_set, if_pos rfl, h3 hbig, List.take_append_drop]
          · have hq0 : q = 0 := by omega
            rw [if_neg (by simpa using hbig), rows_set, if_pos rfl, hq0]
            simp
        · intro g hg
          simp only [toHdfTable, hemp, Bool.false_eq_true, if_false]
          split <;> rw [Dict.get?_set, if_neg (fun e => hg e.symm), h4 g hg]
      · have hn : ((l ++ [x]).length - 1) / 8192 = q := by simp; omega
        rw [hn]
        refine ⟨f', ?_, ?_, ?_, h4⟩
        · rw [List.map_append, runOps_append, h1]
          simp only [List.map_cons, List.map_nil, runOps, Op.run]
          rw [append_keeps _ _ _ (by simp only [WriteCache.size]; rw [hdl]; omega)]
          have e1 : (l ++ [x]).drop (8192 * q) = l.drop (8192 * q) ++ [x] :=
            List.drop_append_of_le_length (by omega)
          have e2 : decide (8192 < (l ++ [x]).length) = decide (8192 < l.length) := by
            simp only [List.length_append, List.length_singleton, decide_eq_decide]; omega
          rw [e1, e2]
        · intro h; simp at h; exact h2 (by omega)
        · intro h
          simp at h
          rw [List.take_append_of_le_length (by omega)]
          exact h3 (by omega)

end Verif.Process
