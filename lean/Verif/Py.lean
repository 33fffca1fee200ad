/-!
# Python primitives shared by the models

Exceptions are values, dictionaries are insertion ordered association lists.
-/

namespace Verif

/-- The exception classes that the modelled code raises or handles. -/
inductive PyErr where
  | stopIteration
  | keyError
  | indexError
  | valueError
  | runtimeError
  | typeError
  | assertionError
  | zeroDivisionError
  | attributeError
  | unboundLocalError
  | floatingPointError
  deriving DecidableEq, Repr

/-- Python `range(n)` for an integer `n`: empty when `n ≤ 0`. -/
def pyRange (n : Int) : List Int := (List.range n.toNat).map Int.ofNat

/-- A Python dictionary: association list in insertion order. -/
abbrev Dict (κ ν : Type) := List (κ × ν)

namespace Dict

variable {κ ν : Type} [DecidableEq κ]

/-- `d.get(k)`; `none` when absent. -/
def get? : Dict κ ν → κ → Option ν
  | [], _ => none
  | (k', v) :: d, k => if k' = k then some v else get? d k

/-- `k in d`. -/
def mem (d : Dict κ ν) (k : κ) : Bool := (get? d k).isSome

/-- `d[k] = v`: replaces in place, or appends a new key at the end. -/
def set : Dict κ ν → κ → ν → Dict κ ν
  | [], k, v => [(k, v)]
  | (k', v') :: d, k, v => if k' = k then (k', v) :: d else (k', v') :: set d k v

/-- The dictionary without key `k`. -/
def erase : Dict κ ν → κ → Dict κ ν
  | [], _ => []
  | (k', v') :: d, k => if k' = k then erase d k else (k', v') :: erase d k

/-- `del d[k]`: KeyError when absent. -/
def del (d : Dict κ ν) (k : κ) : Except PyErr (Dict κ ν) :=
  if mem d k then .ok (erase d k) else .error .keyError

/-- `d.setdefault(k, v)`, returning the new dictionary. -/
def setdefault (d : Dict κ ν) (k : κ) (v : ν) : Dict κ ν :=
  if mem d k then d else set d k v

theorem get?_set (d : Dict κ ν) (k : κ) (v : ν) (k' : κ) :
    get? (set d k v) k' = if k = k' then some v else get? d k' := by
  induction d with
  | nil => simp [set, get?]
  | cons p d ih =>
    obtain ⟨a, b⟩ := p
    by_cases h : a = k
    · subst h
      by_cases h2 : a = k'
      · simp [set, get?, h2]
      · simp [set, get?, h2]
    · by_cases h2 : a = k'
      · subst h2
        have : ¬ k = a := fun e => h e.symm
        simp [set, get?, h, this]
      · simp only [set, h, if_false, get?, h2]
        exact ih

theorem get?_erase (d : Dict κ ν) (k k' : κ) :
    get? (erase d k) k' = if k = k' then none else get? d k' := by
  induction d with
  | nil => simp [erase, get?]
  | cons p d ih =>
    obtain ⟨a, b⟩ := p
    by_cases h : a = k
    · subst h
      simp only [erase, if_true, ih, get?]
      by_cases h2 : a = k'
      · simp [h2]
      · simp [h2]
    · by_cases h2 : a = k'
      · subst h2
        have : ¬ k = a := fun e => h e.symm
        simp [erase, get?, h, this]
      · simp only [erase, h, if_false, get?, h2]
        exact ih

theorem get?_setdefault (d : Dict κ ν) (k : κ) (v : ν) (k' : κ) :
    get? (setdefault d k v) k' = if k = k' then some ((get? d k).getD v) else get? d k' := by
  unfold setdefault mem
  cases h : get? d k with
  | none =>
    simp [get?_set]
  | some w =>
    by_cases h2 : k = k'
    · subst h2; simp [h]
    · simp [h2]

theorem keys_set (d : Dict κ ν) (k : κ) (v : ν) :
    (set d k v).map Prod.fst = if k ∈ d.map Prod.fst then d.map Prod.fst
      else d.map Prod.fst ++ [k] := by
  induction d with
  | nil => simp [set]
  | cons p d ih =>
    obtain ⟨a, b⟩ := p
    by_cases h : a = k
    · simp [set, h]
    · have h' : ¬ k = a := fun e => h e.symm
      simp only [set, h, if_false, List.map_cons, ih, List.mem_cons, h', false_or]
      split <;> simp

theorem nodup_set (d : Dict κ ν) (k : κ) (v : ν)
    (h : (d.map Prod.fst).Nodup) : ((set d k v).map Prod.fst).Nodup := by
  rw [keys_set]
  split
  · exact h
  · rename_i hn
    rw [List.nodup_append]
    exact ⟨h, by simp, by
      intro a ha b hb
      simp only [List.mem_singleton] at hb
      subst hb
      exact fun e => hn (e ▸ ha)⟩

theorem get?_of_mem (d : Dict κ ν) (h : (d.map Prod.fst).Nodup) (p : κ × ν) (hp : p ∈ d) :
    get? d p.1 = some p.2 := by
  induction d with
  | nil => simp at hp
  | cons q d ih =>
    obtain ⟨a, b⟩ := q
    simp only [List.map_cons, List.nodup_cons] at h
    rcases List.mem_cons.1 hp with rfl | hp
    · simp [get?]
    · have : a ≠ p.1 := fun e => h.1 (by rw [e]; exact List.mem_map_of_mem hp)
      simp only [get?, this, if_false]
      exact ih h.2 hp

theorem mem_of_get? (d : Dict κ ν) (k : κ) (v : ν) (h : get? d k = some v) : (k, v) ∈ d := by
  induction d with
  | nil => simp [get?] at h
  | cons q d ih =>
    obtain ⟨a, b⟩ := q
    simp only [get?] at h
    split at h
    · rename_i e
      simp only [Option.some.injEq] at h
      simp [e, h]
    · exact List.mem_cons_of_mem _ (ih h)

end Dict

end Verif
