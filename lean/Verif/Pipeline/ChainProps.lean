import Verif.Pipeline.ChainExample
/-!
# C111: `comp_dynamics` followed by `comp_relaxations`, the relaxation times of molecules
-/

namespace Verif.Pipeline

open Verif.Motion Verif.Dynamics Verif.Relax Verif.Gsd Verif.Process Verif.Cache Verif.Tables

variable {N : ℕ}

/-- **C111.**  `comp_dynamics` followed by `comp_relaxations`, for keyframes whose frames are those of true
courses, with temperature and pressure in the file name.  The result has one row for each keyframe from which
every molecule relaxed in every way, and no others; the row gives the arithmetic and the harmonic mean of the
true relaxation times of the molecules. -/
theorem C111_times (hN : 10 ≤ N) (hN' : N < 2 ^ 32) {a : Args} (hmol : a.mol.positions ≠ [])
    (hdef : a.relaxations = none) {T P : ℝ} (hT : T ≠ 2 ^ 32 - 1) (hP : P ≠ 2 ^ 32 - 1)
    {pairs : List (List ℕ × GFrame PData)} {ending : Option PyErr} {file file' : File FRec}
    {out : Option (List FRec)}
    (hrun : processFile (cenv a T P) (some (pairs, ending)) true file = (file', .ok out))
    (C : ℕ → Course N)
    (hC : ∀ k, framesOf k (visitsOf (cenv a T P) pairs) ≠ [] →
      (C k).Of a (framesOf k (visitsOf (cenv a T P) pairs)) ∧ (k : ℝ) ≠ 2 ^ 32 - 1)
    {signals : Bool} {fit : List (ℝ × ℝ) → Except PyErr RelaxTime.Fit} {hmean : List ℝ → Except PyErr ℝ}
    (hh : IsHarmonicMean hmean) {res : List Summary}
    (hres : compRelaxations signals fit hmean file' = .ok res) :
    ∃ τ : ℕ → String → Fin N → ℤ,
      (∀ k, framesOf k (visitsOf (cenv a T P) pairs) ≠ [] → TrueTimes (C k) (τ k)) ∧
      (res.map Summary.key).Nodup ∧
      (∀ k' T' P', (k', T', P') ∈ res.map Summary.key ↔ ∃ k : ℕ, k' = k ∧ T' = T ∧ P' = P ∧
        framesOf k (visitsOf (cenv a T P) pairs) ≠ [] ∧ AllRelaxed (τ k)) ∧
      ∀ r ∈ res, ∀ k : ℕ, r.key = ((k : ℝ), T, P) → ∀ name ∈ tauNames,
        Dict.get? r.vals (name ++ "_mean") = some (some ((∑ m, (τ k name m : ℝ)) / N)) ∧
        Dict.get? r.vals (name ++ "_hmean") = some (some (N / ∑ m, 1 / (τ k name m : ℝ))) := by
  obtain ⟨τ, hτ, hstore, hcols, hfull, htimes⟩ := chain_table hN hN' hmol hdef hT hP hrun C hC
  set R := rows file' "molecular_relaxations" with hR
  obtain ⟨hnd, hkeys⟩ := C54_known_partial hres hstore
  refine ⟨τ, hτ, hnd, fun k' T' P' => (hkeys k' T' P').trans (hfull k' T' P'), ?_⟩
  intro r hr k hkey name hname
  obtain ⟨k0, hk0, -, -, hk, hrel⟩ := (hfull _ _ _).1 ((hkeys _ _ _).1 (by
    rw [← hkey]; exact List.mem_map_of_mem hr))
  obtain rfl : k = k0 := by exact_mod_cast hk0
  have hnot : name ∉ ["keyframe", "temperature", "pressure", "molecule"] := by
    simp only [tauNames, List.mem_cons, List.not_mem_nil, or_false] at hname
    rcases hname with rfl | rfl | rfl | rfl | rfl | rfl <;> decide
  obtain ⟨dyn, mol, m, cols, -, hm, hmm, -, rfl⟩ := computeRelaxations_eq hres
  obtain rfl : molTable R = mol := Option.some.inj (hstore.symm.trans hm)
  obtain ⟨s0, hs0, rfl⟩ := List.mem_map.1 hr
  have hpos : ∀ k' T' P', FullyRelaxed (molTable R) k' T' P' → ∀ x ∈ times (molTable R) k' T' P' name, 0 < x := by
    intro k' T' P' hf x hx
    obtain ⟨k1, rfl, rfl, rfl, hk1, -⟩ := (hfull _ _ _).1 hf
    rw [htimes k1 hk1 name hname, List.mem_ofFn] at hx
    obtain ⟨m, rfl⟩ := hx
    exact_mod_cast ((hτ k1 hk1).pos (hC k1 hk1).1.pos (hC k1 hk1).1.later) name hname m
  have hcol : name ∈ (molTable R).columns := by rw [hcols]; simp [hname]
  have hnot' : name ∉ ["keyframe", "temperature", "pressure"] := by
    intro h; apply hnot; simp only [List.mem_cons, List.not_mem_nil, or_false] at h ⊢; tauto
  obtain ⟨mn, hm', h1, h2, h3, h4, -⟩ := C52_values hh hmm hs0 hkey hcol hnot' hpos
  have hsum : ∀ f : Fin N → ℝ, (List.ofFn f).sum = ∑ m, f m := fun f => List.sum_ofFn
  have e3 : mn = (∑ m, (τ k name m : ℝ)) / N := by
    rw [h3, htimes k hk name hname, hsum]; simp
  have e4 : hm' = N / ∑ m, 1 / (τ k name m : ℝ) := by
    rw [h4, htimes k hk name hname, List.map_ofFn, hsum]; simp
  rw [← e3, ← e4]
  constructor
  · apply get?_left h1
    intro v hv
    obtain ⟨c, -, -, ⟨hcn, rfl⟩ | ⟨hcn, x, hx, rfl⟩⟩ := C52_only hmm hs0 hkey hv
    · obtain rfl := append_right hcn
      rw [h3]
    · exact absurd hcn (mean_ne_hmean _ _)
  · apply get?_left h2
    intro v hv
    obtain ⟨c, -, -, ⟨hcn, rfl⟩ | ⟨hcn, x, hx, rfl⟩⟩ := C52_only hmm hs0 hkey hv
    · exact absurd hcn.symm (mean_ne_hmean _ _)
    · obtain rfl := append_right hcn
      have h5 := hh (times (molTable R) k T P name) (by
        rw [htimes k hk name hname]; intro h0; have := congrArg List.length h0; simp at this; omega)
        (hpos _ _ _ ((hfull _ _ _).2 ⟨k, rfl, rfl, rfl, hk, hrel⟩))
      rw [hx] at h5
      rw [h4, Except.ok.inj h5]

/-- **C111**, nothing is raised: when the harmonic mean raises nothing but ValueError and the fits for the
diffusion constants succeed or raise TypeError, `comp_relaxations` returns. -/
theorem C111_returns (hN : 10 ≤ N) (hN' : N < 2 ^ 32) {a : Args} (hmol : a.mol.positions ≠ [])
    (hdef : a.relaxations = none) {T P : ℝ} (hT : T ≠ 2 ^ 32 - 1) (hP : P ≠ 2 ^ 32 - 1)
    {pairs : List (List ℕ × GFrame PData)} {ending : Option PyErr} {file file' : File FRec}
    {out : Option (List FRec)}
    (hrun : processFile (cenv a T P) (some (pairs, ending)) true file = (file', .ok out))
    (C : ℕ → Course N)
    (hC : ∀ k, framesOf k (visitsOf (cenv a T P) pairs) ≠ [] →
      (C k).Of a (framesOf k (visitsOf (cenv a T P) pairs)) ∧ (k : ℝ) ≠ 2 ^ 32 - 1)
    (signals : Bool) {fit : List (ℝ × ℝ) → Except PyErr RelaxTime.Fit} (hfit : Fits fit)
    {hmean : List ℝ → Except PyErr ℝ} (hh : IsHarmonicMean hmean)
    (he : ∀ l e, hmean l = .error e → e = .valueError) :
    ∃ res, compRelaxations signals fit hmean file' = .ok res := by
  obtain ⟨τ, hτ, hstore, hcols, hfull, htimes⟩ := chain_table hN hN' hmol hdef hT hP hrun C hC
  obtain ⟨k0, hk0⟩ := chain_visited hrun
  have hD : "tau_D" ∈ tauNames := by simp [tauNames]
  obtain ⟨m, hm⟩ := (C52_succeeds hh (molTable (rows file' "molecular_relaxations"))).1 he
    (by rw [HasKeys, hcols]; simp) ⟨"tau_D", by rw [hcols]; simp [tauNames], by decide, by
      intro k' T' P' hf x hx
      obtain ⟨k1, rfl, rfl, rfl, hk1, -⟩ := (hfull _ _ _).1 hf
      rw [htimes k1 hk1 _ hD, List.mem_ofFn] at hx
      obtain ⟨m, rfl⟩ := hx
      exact_mod_cast ((hτ k1 hk1).pos (hC k1 hk1).1.pos (hC k1 hk1).1.later) _ hD m⟩
  obtain ⟨dyn, hdyn⟩ : ∃ dyn, (storeOf file').dynamics = some dyn := by
    have hC0 := (hC k0 hk0).1
    have hlen := (C91_true_motion hN a _ (C k0).c hC0.dim hmol hC0.pos hdef hrun k0 hC0.box hC0.follows
      hC0.wave hC0.frames).1
    cases hg : Dict.get? file' "dynamics" with
    | some d => exact ⟨dynTable d, by simp [storeOf, hg]⟩
    | none =>
      have h0 : rows file' "dynamics" = [] := by simp [rows, hg]
      rw [h0] at hlen
      simp at hlen
  exact computeRelaxations_returns signals hfit rfl hdyn hstore hm

/-- A fit that never succeeds. -/
def noFit : List (ℝ × ℝ) → Except PyErr RelaxTime.Fit := fun _ => .error .typeError

theorem oldHmean_error (l : List ℝ) (e : PyErr) (h : oldHmean l = .error e) : e = .valueError := by
  unfold oldHmean at h
  split at h
  · cases h
  · cases h; rfl

theorem e_C (k : ℕ) (hk : framesOf k (visitsOf (cenv tA 1 2) ePairs) ≠ []) :
    eC.Of tA (framesOf k (visitsOf (cenv tA 1 2) ePairs)) ∧ (k : ℝ) ≠ 2 ^ 32 - 1 := by
  obtain rfl := e_only hk
  exact ⟨e_of, by norm_num⟩

/-- The example, from the trajectory to the table: one row for keyframe 0 at temperature 1 and pressure 2, with
9 for the mean time to diffuse and 3 for the mean time to move. -/
theorem e_chain : ∃ file' res r, processFile (cenv tA 1 2) (some (ePairs, none)) true [] = (file', .ok none) ∧
    compRelaxations true noFit oldHmean file' = .ok res ∧ r ∈ res ∧ r.key = (((0 : ℕ) : ℝ), 1, 2) ∧
    Dict.get? r.vals "tau_D_mean" = some (some 9) ∧ Dict.get? r.vals "tau_F_hmean" = some (some 3) := by
  obtain ⟨file', hrun⟩ := e_returns
  have hmol : tA.mol.positions ≠ [] := by simp [tA, exMol]
  obtain ⟨res, hres⟩ := C111_returns (N := 10) (by norm_num) (by norm_num) hmol rfl (by norm_num) (by norm_num)
    hrun (fun _ => eC) e_C true (fun _ => Or.inr rfl : Fits noFit) oldHmean_spec oldHmean_error
  obtain ⟨τ, hτ, -, hkeys, hvals⟩ := C111_times (N := 10) (by norm_num) (by norm_num) hmol rfl (by norm_num)
    (by norm_num) hrun (fun _ => eC) e_C oldHmean_spec hres
  have h0 : framesOf 0 (visitsOf (cenv tA 1 2) ePairs) ≠ [] := by rw [e_frames]; simp [gframes]
  obtain ⟨hD, hF, hall⟩ := e_times (hτ 0 h0)
  obtain ⟨r, hr, hkey⟩ := List.mem_map.1 ((hkeys ((0 : ℕ) : ℝ) 1 2).2 ⟨0, rfl, rfl, rfl, h0, hall⟩)
  refine ⟨file', res, r, hrun, hres, hr, hkey, ?_, ?_⟩
  · have := (hvals r hr 0 hkey "tau_D" (by simp [tauNames])).1
    rw [show "tau_D" ++ "_mean" = "tau_D_mean" from rfl] at this
    rw [this]
    simp [hD]
  · have := (hvals r hr 0 hkey "tau_F" (by simp [tauNames])).2
    rw [show "tau_F" ++ "_hmean" = "tau_F_hmean" from rfl] at this
    rw [this]
    simp [hF]
    norm_num

end Verif.Pipeline
