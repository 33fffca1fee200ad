import Verif.Process.UnsignedLemmas
import Verif.Pipeline.UnsignedModel
/-!
# Helper lemmas for C117: the trackers with numbers of `uint64`
-/

namespace Verif.Pipeline

open Verif.Motion Verif.Dynamics Verif.Relax Verif.Gsd Verif.Process Verif.Cache

variable {ν : Type}

theorem sub64_ok {a b : ℤ} (h : b ≤ a) : sub64 a b = .ok (a - b) := by
  unfold sub64; rw [if_neg (by omega)]

theorem sub64_error {a b : ℤ} (h : a < b) : sub64 a b = .error .floatingPointError := by
  unfold sub64; rw [if_pos (by omega)]

theorem new_timestep {t : ℤ} {box : List ℝ} {pos : List V3} {ori : Option (List Quat)}
    {mol : Option Dynamics.Mol} {wave : Option ℝ} {d : Dyn} (h : Dyn.new t box pos ori mol wave = .ok d) :
    d.timestep = t := by
  unfold Dyn.new at h
  split at h
  · cases h
  · simp only at h
    split at h
    · cases h
    · split at h
      · cases h
      · cases h; rfl

theorem new_init {calcWave : Box → List V3 → Except PyErr ℝ} {t : ℤ} {box : List ℝ} {pos : List V3}
    {ori : Option (List Quat)} {mol : Option Dynamics.Mol} {wave : Option ℝ} {r : Relx}
    (h : Relx.new calcWave t box pos ori mol wave = .ok r) : r.init = t := by
  unfold Relx.new at h
  simp only at h
  split at h
  · cases h
  · split at h
    · cases h
    · split at h
      · cases h
      · split at h
        · cases h
        · split at h
          · cases h
          · cases h; rfl

theorem env64_refuses (a : Args) (vars : Except PyErr ν) :
    Refuses (env a vars) (env64 a vars) (fun f => f.timestep) (fun d => d.timestep) (fun r => r.init) where
  numPos := rfl
  newDyn := rfl
  newRelax := rfl
  custom := rfl
  summary := rfl
  simVars := rfl
  after d f h := by
    show Dyn.computeAll64 _ _ _ _ _ _ = Dyn.computeAll _ _ _ _ _ _
    unfold Dyn.computeAll64 Dyn.computeAll Dyn.add
    simp only
    rcases d.motion.add f.data.position f.data.orientation with ⟨m, e⟩
    cases e with
    | some e => rfl
    | none => simp only [sub64_ok h]
  afterRelax r f h := by
    show Relx.add64 _ _ _ _ = Relx.add _ _ _ _
    unfold Relx.add64 Relx.add
    rcases r.motion.add f.data.position f.data.orientation with ⟨m, e⟩
    cases e with
    | some e => rfl
    | none =>
      simp only [sub64_ok h]
      cases r.relax <;> rfl
  before d f row h hok := by
    show (Dyn.computeAll64 _ _ _ _ _ _).2 = _
    change (Dyn.computeAll _ _ _ _ _ _).2 = _ at hok
    unfold Dyn.computeAll Dyn.add at hok
    unfold Dyn.computeAll64 Dyn.add
    simp only at hok ⊢
    rcases hm : d.motion.add f.data.position f.data.orientation with ⟨m, e⟩
    rw [hm] at hok
    cases e with
    | some e => cases hok
    | none => simp only [sub64_error h]
  start_new f d h := by
    simp only [env] at h
    exact new_timestep h
  start_keep d f := by
    show (Dyn.computeAll _ _ _ _ _ _).1.timestep = _
    unfold Dyn.computeAll Dyn.add
    simp only
    rcases d.motion.add f.data.position f.data.orientation with ⟨m, e⟩
    cases e <;> rfl
  begun_new f r h := by
    simp only [env] at h
    exact new_init h
  begun_keep r f := by
    show (Relx.add _ _ _ _).1.init = _
    unfold Relx.add
    rcases r.motion.add f.data.position f.data.orientation with ⟨m, e⟩
    cases e <;> rfl
  begun_custom set h r := by
    change a.relaxations.map Relx.set = some set at h
    cases hd : a.relaxations with
    | none => rw [hd] at h; cases h
    | some defs => rw [hd] at h; cases h; rfl

theorem forward_of_pairwise {ι Φ D R ρ σ ν : Type} [DecidableEq ι] (E : Env Φ D R ρ σ ν) (stamp : Φ → ℤ)
    (pairs : List (List ι × Φ)) (h : (pairs.map Prod.snd).Pairwise (fun a b => stamp a ≤ stamp b)) :
    Forward stamp (visitsOf E pairs) := by
  have hv : (visitsOf E pairs).Pairwise (fun a b => stamp a.2 ≤ stamp b.2) := by
    unfold visitsOf
    rw [List.pairwise_flatMap]
    rw [List.pairwise_map] at h
    constructor
    · intro p _
      split
      · exact List.Pairwise.nil
      · rw [List.pairwise_map]
        exact List.pairwise_of_forall (fun _ _ => le_refl _)
    · refine h.imp ?_
      intro p q hpq x hx y hy
      have e : ∀ (p : List ι × Φ) (x : ι × Φ), (x ∈ if E.numPos p.2 = 0 then []
          else p.1.map (fun k => (k, p.2))) → x.2 = p.2 := by
        intro p x hx
        split at hx
        · simp at hx
        · obtain ⟨k, _, rfl⟩ := List.mem_map.1 hx
          rfl
      rw [e p x hx, e q y hy]
      exact hpq
  intro k g hg f hf
  have hk : (framesOf k (visitsOf E pairs)).Pairwise (fun a b => stamp a ≤ stamp b) := by
    unfold framesOf
    rw [List.pairwise_filterMap]
    refine hv.imp ?_
    intro a b hab x hx y hy
    split at hx <;> split at hy <;> simp_all
  cases hl : framesOf k (visitsOf E pairs) with
  | nil => rw [hl] at hf; simp at hf
  | cons g' l =>
    rw [hl] at hg hf hk
    simp only [List.head?_cons, Option.some.injEq] at hg
    subst hg
    rcases List.mem_cons.1 hf with rfl | hf
    · exact le_refl _
    · exact (List.pairwise_cons.1 hk).1 f hf

/-- What a run leaves that ends in an exception of a tracker. -/
theorem refused_run {ι Φ D R ρ σ ν : Type} [DecidableEq ι] {E E' : Env Φ D R ρ σ ν} {stamp : Φ → ℤ}
    {start : D → ℤ} {begun : R → ℤ} (hE : Refuses E E' stamp start begun) (pairs : List (List ι × Φ))
    (ending : Option PyErr) (file file0 : File (Rec ι ρ σ ν)) (out : Option (List (Rec ι ρ σ ν)))
    (h : processFile E (some (pairs, none)) true [] = (file0, .ok out))
    (hall : (rows file0 "dynamics").length = (visitsOf E pairs).length)
    (hn : ¬ Forward stamp (visitsOf E pairs)) :
    ∃ file', processFile E' (some (pairs, ending)) true file = (file', .error .floatingPointError) ∧
      ((visitsOf E pairs).length ≤ 8192 → file' = file) ∧
      (file' = file ∨ rows file' "dynamics" <+: rows file0 "dynamics") ∧
      ∀ g, g ≠ "dynamics" → Dict.get? file' g = Dict.get? file g := by
  obtain ⟨-, -, herr, v, -, -, hrows, -, -⟩ := processFile_ok E pairs none [] file0 out h
  have hL : rows file0 "dynamics" = (coreRun E (visitsOf E pairs) []).1.2 := by
    rw [hrows]
    split
    · rename_i h0; rw [h0]; rfl
    · rfl
  rw [hL] at hall ⊢
  obtain ⟨he, n, hlt, htake⟩ := coreRun_refused hE herr hall hn
  have hvis : visitsOf E' pairs = visitsOf E pairs := by unfold visitsOf; rw [hE.numPos]
  obtain ⟨c, f1, h1, h2⟩ := loop_file E' pairs file
  rw [hvis] at h1 h2
  have hrun : processFile E' (some (pairs, ending)) true file = (f1, .error .floatingPointError) := by
    simp only [processFile]
    rw [h1, he]
  refine ⟨f1, hrun, ?_⟩
  by_cases hnil : (coreRun E' (visitsOf E pairs) []).1.2 = []
  · rw [hnil] at h2
    simp only [List.map_nil, runOps, Prod.mk.injEq, and_true] at h2
    obtain ⟨-, rfl⟩ := h2
    exact ⟨fun _ => rfl, Or.inl rfl, fun _ _ => rfl⟩
  · obtain ⟨f', g1, g2, g3, g4⟩ := appends_full file _ hnil
    rw [h2] at g1
    simp only [Prod.mk.injEq, and_true] at g1
    obtain ⟨-, rfl⟩ := g1
    have hlen : (coreRun E' (visitsOf E pairs) []).1.2.length ≤ (visitsOf E pairs).length :=
      coreRun_length E' _ _
    refine ⟨fun hle => g2 (hlen.trans hle), ?_, g4⟩
    by_cases hle : (coreRun E' (visitsOf E pairs) []).1.2.length ≤ 8192
    · exact Or.inl (g2 hle)
    · right
      rw [g3 (by omega), htake, List.take_take]
      exact List.take_prefix _ _

end Verif.Pipeline
