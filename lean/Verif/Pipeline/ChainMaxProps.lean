import Verif.Pipeline.ChainMaxLemmas
import Verif.Pipeline.ChainMsdExample
/-!
# C138: the non-Gaussian parameters and the coupling, and the times of their largest values
-/

namespace Verif.Pipeline

open Verif.Motion Verif.Dynamics Verif.Relax Verif.Gsd Verif.Process Verif.Cache Verif.Tables

variable {N : ℕ}

/-- **C138**, the rows of `process_file`.  The ratios are those of the true motion since the keyframe, and NaN where
nothing has moved. -/
theorem C138_ratios {ι ν : Type} [DecidableEq ι] (hN : 10 ≤ N) (a : Args) (vars : Except PyErr ν) (c : Cell)
    (hdim : decide (a.mol.dimensions = 2) = c.is2D) (hmol : a.mol.positions ≠ []) {κ : ℝ} (hκ : 0 < κ)
    (hdef : a.relaxations = none) {pairs : List (List ι × GFrame PData)} {ending : Option PyErr}
    {file file' : File (Rec ι (Dict Quantity Val) (Dict String ℤ) ν)}
    {out : Option (List (Rec ι (Dict Quantity Val) (Dict String ℤ) ν))}
    (h : processFile (env a vars) (some (pairs, ending)) true file = (file', .ok out)) (k : ι)
    {n : ℕ} {t : ℕ → ℤ} {box : ℕ → List ℝ} {u s : ℕ → Fin N → V3} {θ σ : ℕ → Fin N → ℝ}
    {o : ℕ → Option (Fin N → Quat)} (hbox : box 0 = c.array) (hF : Follows c n u s θ σ o)
    (hw : waveOf a.calcWave c.box (List.ofFn (s 0)) a.wave = .ok κ)
    (hk : framesOf k (visitsOf (env a vars) pairs) = gframes t box s o n) :
    ((rows file' "dynamics").filterMap (dynOf k)).length = n + 1 ∧
    ∀ i ≤ n, ∃ row, ((rows file' "dynamics").filterMap (dynOf k))[i]? = some row ∧
      TrueRatios row (fun m => c.flat (u i m - u 0 m)) (fun m => θ i m - θ 0 m) := by
  have hb : createFreudBox (box 0) (is2d (some a.mol)) = .ok c.box := by
    rw [hbox, show is2d (some a.mol) = c.is2D from hdim]
    exact createFreudBox_cell c
  obtain ⟨row, h1, -, h3⟩ := keyframe_rows hN hb hF.unit hw hκ hdef hmol h hk
  rw [h1]
  refine ⟨by simp, ?_⟩
  intro i hi
  refine ⟨row i, by rw [List.getElem?_map, List.getElem?_range (by omega)]; rfl, ?_⟩
  have hH := held_follows hF hi
  obtain ⟨hT, hR⟩ := hH.sums (by omega)
  have hall := computeAll_dynAfter a.argsort c.box (some a.mol) a.wave 360 (t 0) (t i) (held s) (held o)
    (held_unit hF.unit) i a.scattering
  rw [h3 i] at hall
  refine ratios_of_motion (by omega) hall _ _ ?_ ?_
  · have : (dynAfter c.box (some a.mol) a.wave 360 (t 0) (held s) (held o) (i + 1)).motion.deltaT =
      List.ofFn (sumT c.box (held s) (i + 1)) := rfl
    rw [this, hT]
    rfl
  · have : (dynAfter c.box (some a.mol) a.wave 360 (t 0) (held s) (held o) (i + 1)).motion.deltaR =
      List.ofFn (sumR (held o) (i + 1)) := rfl
    rw [this, hR]
    rfl

/-- The hypotheses of `C138_ratios`: a run on six frames with two keyframes, in which a molecule walks out of the
cell. -/
example : ∃ file', processFile (env tA (.ok ())) (some (tPairs, none)) true [] = (file', .ok none) ∧
    framesOf 0 (visitsOf (env tA (.ok ())) tPairs) = gframes tT (fun _ => tC.array) tS tO 5 ∧
    Follows tC 5 tU tS tθ tσ tO ∧ tS 5 0 ≠ tU 5 0 ∧
    waveOf tA.calcWave tC.box (List.ofFn (tS 0)) tA.wave = .ok 2 := by
  obtain ⟨file', h⟩ := t_returns
  exact ⟨file', h, t_frames, t_follows 5, by simp [tS, tU], rfl⟩

/-- The values in a keyframe's rows. -/
theorem peaked_rows (hN : 10 ≤ N) {a : Args} (hmol : a.mol.positions ≠ [])
    (hdef : a.relaxations = none) {T P : ℝ}
    {pairs : List (List ℕ × GFrame PData)} {ending : Option PyErr} {file file' : File FRec}
    {out : Option (List FRec)}
    (hrun : processFile (cenv a T P) (some (pairs, ending)) true file = (file', .ok out)) {k : ℕ}
    {C : Course N} (hC : C.Of a (framesOf k (visitsOf (cenv a T P) pairs))) {q : Quantity} {y : ℕ → Option ℝ}
    (hy : C.Peaked q y) :
    (∀ d ∈ (rows file' "dynamics").filterMap (dynOf k), ∃ v, Dict.get? d q = some v) ∧
    ((rows file' "dynamics").filterMap (dynOf k)).map (fun d => (Dict.get? d q).bind number) =
      (List.range (C.n + 1)).map y := by
  obtain ⟨hlen, h⟩ := C138_ratios hN a _ C.c hC.dim hmol hC.pos hdef hrun k hC.box hC.follows
    hC.wave hC.frames
  have key : ∀ i ≤ C.n, ∃ row, ((rows file' "dynamics").filterMap (dynOf k))[i]? = some row ∧
      Dict.get? row q = some (.num (y i)) := by
    intro i hi
    obtain ⟨row, h1, h2⟩ := h i hi
    refine ⟨row, h1, ?_⟩
    rcases hy with ⟨rfl, hy⟩ | ⟨rfl, hy⟩
    · rw [hy]; exact h2.alpha
    · rw [hy]
      simp only [Course.turned, sq_abs]
      exact h2.gamma
  constructor
  · intro d hd
    obtain ⟨i, hi⟩ := List.mem_iff_getElem?.1 hd
    have hlt := (List.getElem?_eq_some_iff.1 hi).1
    obtain ⟨row, h1, h2⟩ := key i (by omega)
    rw [hi] at h1
    obtain rfl := Option.some.inj h1
    exact ⟨_, h2⟩
  · apply List.ext_getElem?
    intro i
    by_cases hi : i ≤ C.n
    · obtain ⟨row, h1, h2⟩ := key i hi
      rw [List.getElem?_map, h1, List.getElem?_map, List.getElem?_range (by omega)]
      simp [h2, number]
    · rw [List.getElem?_map, List.getElem?_eq_none (by omega), List.getElem?_map,
        List.getElem?_eq_none (by simp; omega)]
      rfl

theorem peaked_other {C C' : Course N} {q : Quantity} {y : ℕ → Option ℝ} (hy : C.Peaked q y) :
    ∃ y', C'.Peaked q y' := by
  rcases hy with ⟨rfl, -⟩ | ⟨rfl, -⟩
  · exact ⟨_, Or.inl ⟨rfl, fun _ => rfl⟩⟩
  · exact ⟨_, Or.inr ⟨rfl, fun _ => rfl⟩⟩

/-- **C138**, partial: exactly what is reported.  `comp_relaxations` finds the right frame, the first at which the
quantity is largest, but reports as its time the number, modulo 8192, of pairs of a frame and a keyframe that were
processed before it; and NaN exactly if the quantity is never a number. -/
theorem C138_position_partial (hN : 10 ≤ N) (hN' : N < 2 ^ 32) {a : Args} (hmol : a.mol.positions ≠ [])
    (hdef : a.relaxations = none) {T P : ℝ} (hT : T ≠ 2 ^ 32 - 1) (hP : P ≠ 2 ^ 32 - 1)
    {pairs : List (List ℕ × GFrame PData)} {ending : Option PyErr} {file file' : File FRec}
    {out : Option (List FRec)}
    (hrun : processFile (cenv a T P) (some (pairs, ending)) true file = (file', .ok out))
    (C : ℕ → Course N)
    (hC : ∀ k, framesOf k (visitsOf (cenv a T P) pairs) ≠ [] →
      (C k).Of a (framesOf k (visitsOf (cenv a T P) pairs)) ∧ (k : ℝ) ≠ 2 ^ 32 - 1)
    {signals : Bool} {fit : List (ℝ × ℝ) → Except PyErr RelaxTime.Fit} {hmean : List ℝ → Except PyErr ℝ}
    {res : List Summary}
    (hres : compRelaxations signals fit hmean file' = .ok res) {r : Summary} (hr : r ∈ res) {k : ℕ}
    (hkey : r.key = ((k : ℝ), T, P)) {q : Quantity} {y : ℕ → Option ℝ} (hy : (C k).Peaked q y) :
    (∃ i j : ℕ, FirstPeak (C k).n y i ∧ (∃ f, (visitsOf (cenv a T P) pairs)[j]? = some (k, f)) ∧
      (framesOf k ((visitsOf (cenv a T P) pairs).take j)).length = i ∧
      Dict.get? r.vals (quantityName q) = some (some ((j % 8192 : ℕ) : ℝ))) ∨
    ((∀ i ≤ (C k).n, y i = none) ∧ Dict.get? r.vals (quantityName q) = some none) := by
  have hq : q = .alpha ∨ q = .gamma := by
    rcases hy with ⟨h, _⟩ | ⟨h, _⟩ <;> simp [h]
  obtain ⟨j, rr, h1, h2, h3⟩ := chain_value hN hN' hmol hdef hT hP hrun C hC hres hr hkey (q := q) (y := y)
    (by rcases hq with rfl | rfl <;> decide) (by rcases hq with rfl | rfl <;> decide)
    (fun k' hk' => by
      obtain ⟨y', hy'⟩ := peaked_other (C' := C k') hy
      exact (peaked_rows hN hmol hdef hrun (hC k' hk').1 hy').1)
    (fun hk => (peaked_rows hN hmol hdef hrun (hC k hk).1 hy).2)
  have h4 : RelaxTime.maxTimeRelaxation ((List.range ((C k).n + 1)).map (fun i => ((j i % 8192 : ℕ) : ℝ)))
      ((List.range ((C k).n + 1)).map y) = .ok rr := by
    unfold RelaxTime.computeRelaxationValue at h2
    rw [if_neg (by simp)] at h2
    rcases hq with rfl | rfl <;>
      rwa [if_neg (by decide), if_neg (by decide), if_neg (by decide), if_pos (by decide)] at h2
  rcases max_time_frames h4 with ⟨i, h5, h6⟩ | ⟨h5, h6⟩
  · exact Or.inl ⟨i, j i, h5, (h1 i h5.1).1, (h1 i h5.1).2, by rw [h3, h6]⟩
  · exact Or.inr ⟨h5, by rw [h3, h6]⟩

/-- **C138**, partial, a single keyframe with at most 8192 frames: what is reported is the number of the right
frame, and this is the time since the keyframe if the trajectory has a frame for every step. -/
theorem C138_single_partial (hN : 10 ≤ N) (hN' : N < 2 ^ 32) {a : Args} (hmol : a.mol.positions ≠ [])
    (hdef : a.relaxations = none) {T P : ℝ} (hT : T ≠ 2 ^ 32 - 1) (hP : P ≠ 2 ^ 32 - 1)
    {pairs : List (List ℕ × GFrame PData)} {ending : Option PyErr} {file file' : File FRec}
    {out : Option (List FRec)}
    (hrun : processFile (cenv a T P) (some (pairs, ending)) true file = (file', .ok out)) {k : ℕ}
    (hk : (k : ℝ) ≠ 2 ^ 32 - 1) (C : Course N)
    (honly : ∀ v ∈ visitsOf (cenv a T P) pairs, v.1 = k)
    (hC : C.Of a (framesOf k (visitsOf (cenv a T P) pairs))) (hn : C.n < 8192)
    {signals : Bool} {fit : List (ℝ × ℝ) → Except PyErr RelaxTime.Fit} {hmean : List ℝ → Except PyErr ℝ}
    {res : List Summary}
    (hres : compRelaxations signals fit hmean file' = .ok res) {r : Summary} (hr : r ∈ res)
    (hkey : r.key = ((k : ℝ), T, P)) {q : Quantity} {y : ℕ → Option ℝ} (hy : C.Peaked q y)
    (hmoves : ∃ i ≤ C.n, y i ≠ none) :
    ∃ i : ℕ, FirstPeak C.n y i ∧ Dict.get? r.vals (quantityName q) = some (some (i : ℝ)) ∧
      ((∀ i ≤ C.n, C.t i - C.t 0 = i) →
        Dict.get? r.vals (quantityName q) = some (some ((C.t i - C.t 0 : ℤ) : ℝ))) := by
  have hall : ∀ vs : List (ℕ × GFrame PData), (∀ v ∈ vs, v.1 = k) → framesOf k vs = vs.map Prod.snd := by
    intro vs h
    unfold framesOf
    rw [← List.filterMap_eq_map]
    apply List.filterMap_congr
    intro v hv
    simp [h v hv]
  rcases C138_position_partial hN hN' hmol hdef hT hP hrun (fun _ => C) (by
    intro k' hk'
    obtain rfl : k' = k := by
      by_contra hne
      apply hk'
      unfold framesOf
      rw [List.filterMap_eq_nil_iff]
      intro v hv
      rw [if_neg (by rw [honly v hv]; exact Ne.symm hne)]
    exact ⟨hC, hk⟩) hres hr hkey hy with ⟨i, j, h1, ⟨f, h2⟩, h3, h4⟩ | ⟨h1, -⟩
  · have hj : j % 8192 = i := by
      have hjlt : j < (visitsOf (cenv a T P) pairs).length := (List.getElem?_eq_some_iff.1 h2).1
      rw [hall _ (fun v hv => honly v (List.mem_of_mem_take hv))] at h3
      simp only [List.length_map, List.length_take] at h3
      have := h1.1
      omega
    rw [hj] at h4
    refine ⟨i, h1, h4, fun ht => ?_⟩
    rw [h4, ht i h1.1]
    simp
  · obtain ⟨i, hi, h0⟩ := hmoves
    exact absurd (h1 i hi) h0

/-- The full property: what is reported for alpha and gamma is the time, since the keyframe, of the first frame at
which they are largest. -/
def ReportsPeak : Prop :=
  ∀ (N : ℕ) (a : Args) (T P : ℝ) (pairs : List (List ℕ × GFrame PData)) (ending : Option PyErr)
    (file file' : File FRec) (out : Option (List FRec)) (C : ℕ → Course N) (signals : Bool)
    (fit : List (ℝ × ℝ) → Except PyErr RelaxTime.Fit) (hmean : List ℝ → Except PyErr ℝ) (res : List Summary)
    (r : Summary) (k : ℕ) (q : Quantity) (y : ℕ → Option ℝ) (i : ℕ),
    10 ≤ N → N < 2 ^ 32 → a.mol.positions ≠ [] → a.relaxations = none → T ≠ 2 ^ 32 - 1 → P ≠ 2 ^ 32 - 1 →
    processFile (cenv a T P) (some (pairs, ending)) true file = (file', .ok out) →
    (∀ k, framesOf k (visitsOf (cenv a T P) pairs) ≠ [] →
      (C k).Of a (framesOf k (visitsOf (cenv a T P) pairs)) ∧ (k : ℝ) ≠ 2 ^ 32 - 1) →
    Fits fit → IsHarmonicMean hmean → compRelaxations signals fit hmean file' = .ok res → r ∈ res →
    r.key = ((k : ℝ), T, P) → (C k).Peaked q y → FirstPeak (C k).n y i →
    Dict.get? r.vals (quantityName q) = some (some (((C k).t i - (C k).t 0 : ℤ) : ℝ))

/-- In the example all molecules move alike, so that alpha is -1/2 from frame 1 on. -/
theorem d_peaked : dC.Peaked .alpha (fun i => if i = 0 then none else some (-1 / 2)) := by
  refine Or.inl ⟨rfl, fun i => ?_⟩
  have h2 : ∀ m, dC.moved m i ^ 2 = 2 * i := fun m => by
    rw [d_moved, Real.sq_sqrt (by positivity)]
  have h4 : ∀ m, dC.moved m i ^ 4 = (2 * i) ^ 2 := fun m => by rw [← h2 m]; ring
  have e : ∀ x : ℝ, avg (fun _ : Fin 10 => x) = x := by intro x; simp [avg]
  simp only [h2, h4, e]
  rcases Nat.eq_zero_or_pos i with rfl | hi
  · simp [excess]
  · have : (i : ℝ) ≠ 0 := by positivity
    rw [if_neg (by omega), excess, if_neg (by positivity)]
    congr 1
    field_simp
    norm_num

theorem d_peak : FirstPeak dC.n (fun i => if i = 0 then none else some (-1 / 2)) 1 := by
  refine ⟨by simp [dC], -1 / 2, rfl, ?_, ?_⟩
  · intro j _ z hz
    by_cases hj : j = 0
    · simp [hj] at hz
    · simp only [hj, if_false, Option.some.injEq] at hz
      exact hz.ge
  · intro j hj z hz
    obtain rfl : j = 0 := by omega
    simp at hz

/-- In the example alpha is largest one frame, that is three steps, after the keyframe; what is reported is 1. -/
theorem C138_witness : ∃ file' res r,
    processFile (cenv tA 1 2) (some (dPairs, none)) true [] = (file', .ok none) ∧
    compRelaxations true lineFit oldHmean file' = .ok res ∧ r ∈ res ∧ r.key = (((0 : ℕ) : ℝ), 1, 2) ∧
    Dict.get? r.vals "alpha" = some (some 1) := by
  obtain ⟨file', res, r, hrun, hres, hr, hkey⟩ := d_chain
  refine ⟨file', res, r, hrun, hres, hr, hkey, ?_⟩
  obtain ⟨i, h1, h2, -⟩ := C138_single_partial (N := 10) (by norm_num) (by norm_num) (by simp [tA, exMol]) rfl
    (by norm_num) (by norm_num) hrun (by norm_num) dC (by
      intro v hv
      rw [d_visits] at hv
      obtain ⟨i, -, rfl⟩ := List.mem_map.1 hv
      rfl) d_of (by simp [dC]) hres hr hkey d_peaked ⟨1, by simp [dC], by simp⟩
  have hi : i = 1 := by
    obtain ⟨-, x, e1, -, e3⟩ := h1
    have h0 : i ≠ 0 := by rintro rfl; simp at e1
    by_contra hne
    simp only [h0, if_false, Option.some.injEq] at e1
    have := e3 1 (by omega) (-1 / 2) (by simp)
    linarith
  subst hi
  rw [show "alpha" = quantityName .alpha from rfl, h2]
  norm_num

/-- **C138** is false. -/
theorem C138_refuted : ¬ ReportsPeak := by
  intro h
  obtain ⟨file', res, r, hrun, hres, hr, hkey, hget⟩ := C138_witness
  have := h 10 tA 1 2 dPairs none [] file' none (fun _ => dC) true lineFit oldHmean res r 0 .alpha _ 1
    (by norm_num) (by norm_num) (by simp [tA, exMol]) rfl (by norm_num) (by norm_num) hrun d_C
    lineFit_fits oldHmean_spec hres hr hkey d_peaked d_peak
  rw [show quantityName .alpha = "alpha" from rfl, hget] at this
  simp [dC, tT] at this

end Verif.Pipeline
