import Verif.Dynamics.WaveLemmas
import Verif.Pipeline.WaveNumberLemmas
import Verif.Pipeline.Props
/-!
# C150: what the wave number changes
-/

namespace Verif.Pipeline

open Verif.Motion Verif.Dynamics Verif.Relax Verif.Gsd Verif.Process Verif.Cache

variable {N : ℕ} {ν ι : Type} [DecidableEq ι]

/-- **C150.**  Two runs of `process_file` on the same trajectory that differ in the wave number `κ ≤ κ'` given: in the
rows of a keyframe everything is the same except for the scattering function and the structural relaxations, and
these, "com_struct" and "struct", are not larger for the larger wave number. -/
theorem C150_rows (hN : 10 ≤ N) (a : Args) (vars : Except PyErr ν) {κ κ' : ℝ} (hκ : 0 < κ) (hκκ : κ ≤ κ')
    (hmol : a.mol.positions ≠ []) (hdef : a.relaxations = none)
    {pairs : List (List ι × GFrame PData)} {ending : Option PyErr}
    {file₁ file₂ file file' : File (Rec ι (Dict Quantity Val) (Dict String ℤ) ν)}
    {out out' : Option (List (Rec ι (Dict Quantity Val) (Dict String ℤ) ν))}
    (h : processFile (env { a with wave := some κ } vars) (some (pairs, ending)) true file₁ = (file, .ok out))
    (h' : processFile (env { a with wave := some κ' } vars) (some (pairs, ending)) true file₂ = (file', .ok out'))
    (k : ι) {n : ℕ} {t : ℕ → ℤ} {box : ℕ → List ℝ} {s : ℕ → Fin N → V3} {o : ℕ → Option (Fin N → Quat)}
    (ho : Motion.Unit o) {b : Box} (hb : createFreudBox (box 0) (decide (a.mol.dimensions = 2)) = .ok b)
    (hk : framesOf k (visitsOf (env a vars) pairs) = gframes t box s o n) (i : ℕ) (hi : i ≤ n) :
    ∃ row row', ((rows file "dynamics").filterMap (dynOf k))[i]? = some row ∧
      ((rows file' "dynamics").filterMap (dynOf k))[i]? = some row' ∧
      (∀ q, q ≠ .struct → q ≠ .com_struct → q ≠ .scattering_function →
        Dict.get? row' q = Dict.get? row q) ∧
      (∃ x y, Reports row .com_struct x ∧ Reports row' .com_struct y ∧ y ≤ x) ∧
      ((ReportsNaN row .struct ∧ ReportsNaN row' .struct) ∨
        ∃ x y, Reports row .struct x ∧ Reports row' .struct y ∧ y ≤ x) := by
  obtain ⟨row, h1, -, h3⟩ := keyframe_rows (a := { a with wave := some κ }) hN hb ho (κ := κ) rfl hκ hdef
    hmol h (k := k) hk
  obtain ⟨row', h1', -, h3'⟩ := keyframe_rows (a := { a with wave := some κ' }) hN hb ho (κ := κ') rfl
    (hκ.trans_le hκκ) hdef hmol h' (k := k) hk
  refine ⟨row i, row' i, ?_, ?_, ?_⟩
  · rw [h1, List.getElem?_map, List.getElem?_range (by omega)]; rfl
  · rw [h1', List.getElem?_map, List.getElem?_range (by omega)]; rfl
  · exact quantities_wave (D := dynAfter b (some a.mol) (some κ) 360 (t 0) (held s) (held o) (i + 1))
      (D' := dynAfter b (some a.mol) (some κ') 360 (t 0) (held s) (held o) (i + 1)) rfl rfl rfl rfl rfl rfl hκ hκκ
      (h3 i) (h3' i)

/-- **C150.**  The molecular relaxation times tau_D, tau_F and tau_L of a molecule are not later for the larger wave
number, and tau_T2, tau_T3, tau_T4 are the same. -/
theorem C150_times (hN : 10 ≤ N) (a : Args) (vars : Except PyErr ν) (c : Cell)
    (hdim : decide (a.mol.dimensions = 2) = c.is2D) {κ κ' : ℝ} (hκ : 0 < κ) (hκκ : κ ≤ κ')
    (hmol : a.mol.positions ≠ []) (hdef : a.relaxations = none)
    {pairs : List (List ι × GFrame PData)} {ending : Option PyErr}
    {file₁ file₂ file file' : File (Rec ι (Dict Quantity Val) (Dict String ℤ) ν)}
    {out out' : Option (List (Rec ι (Dict Quantity Val) (Dict String ℤ) ν))}
    (h : processFile (env { a with wave := some κ } vars) (some (pairs, ending)) true file₁ = (file, .ok out))
    (h' : processFile (env { a with wave := some κ' } vars) (some (pairs, ending)) true file₂ = (file', .ok out'))
    (k : ι) {n : ℕ} {t : ℕ → ℤ} {box : ℕ → List ℝ} {u s : ℕ → Fin N → V3} {θ σ : ℕ → Fin N → ℝ}
    {o : ℕ → Option (Fin N → Quat)} (hbox : box 0 = c.array) (hF : Follows c n u s θ σ o)
    (hk : framesOf k (visitsOf (env a vars) pairs) = gframes t box s o n)
    (ht : ∀ i j, i ≤ j → j ≤ n → t i ≤ t j) (hmax : t n - t 0 ≤ 2 ^ 32 - 1) (m : Fin N) :
    (∀ name ∈ ["tau_D", "tau_F", "tau_L"], ∃ v v',
      molCell ((rows file "molecular_relaxations").filterMap (molOf k)) m name = some v ∧
      molCell ((rows file' "molecular_relaxations").filterMap (molOf k)) m name = some v' ∧ v' ≤ v) ∧
    (∀ name ∈ ["tau_T2", "tau_T3", "tau_T4"], ∃ v,
      molCell ((rows file "molecular_relaxations").filterMap (molOf k)) m name = some v ∧
      molCell ((rows file' "molecular_relaxations").filterMap (molOf k)) m name = some v) := by
  have hpi := Real.pi_pos
  have hdist : Real.pi / (2 * κ') ≤ Real.pi / (2 * κ) := by gcongr
  obtain ⟨D, F, L, T2, T3, T4, hc, hD, hF1, hL, h2, h3, h4⟩ :=
    C93_relaxations hN { a with wave := some κ } vars c hdim hmol hκ hdef h k hbox hF rfl hk m
  obtain ⟨D', F', L', T2', T3', T4', hc', hD', hF1', hL', h2', h3', h4'⟩ :=
    C93_relaxations hN { a with wave := some κ' } vars c hdim hmol (hκ.trans_le hκκ) hdef h' k hbox hF rfl hk m
  constructor
  · intro name hn
    simp only [List.mem_cons, List.not_mem_nil, or_false] at hn
    rcases hn with rfl | rfl | rfl
    · exact ⟨D, D', hc ("tau_D", D) (by simp), hc' ("tau_D", D') (by simp), hD.mono hD' (by linarith)⟩
    · exact ⟨F, F', hc ("tau_F", F) (by simp), hc' ("tau_F", F') (by simp), hF1.mono hF1' hdist⟩
    · refine ⟨L, L', hc ("tau_L", L) (by simp), hc' ("tau_L", L') (by simp),
        hL.mono hL' hdist (by linarith) ?_ ?_⟩
      · intro i j hij hj
        have := ht i j hij hj
        omega
      · intro i hi
        have := ht i n hi le_rfl
        omega
  · intro name hn
    simp only [List.mem_cons, List.not_mem_nil, or_false] at hn
    rcases hn with rfl | rfl | rfl
    · exact ⟨T2, hc ("tau_T2", T2) (by simp), (h2'.unique h2) ▸ hc' ("tau_T2", T2') (by simp)⟩
    · exact ⟨T3, hc ("tau_T3", T3) (by simp), (h3'.unique h3) ▸ hc' ("tau_T3", T3') (by simp)⟩
    · exact ⟨T4, hc ("tau_T4", T4) (by simp), (h4'.unique h4) ▸ hc' ("tau_T4", T4') (by simp)⟩

/-- The hypotheses of `C150_rows` and `C150_times`, for any two positive wave numbers. -/
example (κ : ℝ) (hκ : 0 < κ) : ∃ file',
    processFile (env { tA with wave := some κ } (.ok ())) (some (tPairs, none)) true [] = (file', .ok none) ∧
    framesOf 0 (visitsOf (env tA (.ok ())) tPairs) = gframes tT (fun _ => tC.array) tS tO 5 ∧
    Follows tC 5 tU tS tθ tσ tO ∧ tT 5 - tT 0 ≤ 2 ^ 32 - 1 ∧ ∀ i j, i ≤ j → tT i ≤ tT j := by
  obtain ⟨file', h⟩ := C91_returns (ι := ℕ) { tA with wave := some κ } () (by simp [tA, exMol]) (by simp [tA])
    (by simpa using hκ.ne') tPairs [] (by
      intro p hp _
      simp only [tPairs, List.mem_map] at hp
      obtain ⟨i, _, rfl⟩ := hp
      refine ⟨by simp [gf], by simp [gf, tO], tC.box, κ, createFreudBox_cell tC, rfl, hκ⟩) (by
      refine ⟨_, List.mem_map_of_mem (List.mem_range.2 (by norm_num : 0 < 6)), ?_, ?_⟩
      · simp [gf]
      · simp)
  refine ⟨file', h, t_frames, t_follows 5, by simp [tT], ?_⟩
  intro i j hij
  simp only [tT]
  omega

end Verif.Pipeline
