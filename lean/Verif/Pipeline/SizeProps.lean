import Verif.Pipeline.Props
/-!
# Exactly which numbers of molecules `process_file` accepts: C94
-/

namespace Verif.Pipeline

open Verif.Cache Verif.Process Verif.Motion Verif.Dynamics

variable {ι ν : Type} [DecidableEq ι] {N : ℕ}

/-- **C94, exactly.**  A file of `N > 0` molecules, with a wave number given and without custom
relaxations, is processed to the end if and only if `N` is at least ten. -/
theorem C94_exactly (hN : 0 < N) (a : Args) (v : ν) (hmol : a.mol.positions ≠ [])
    (hdef : a.relaxations = none) {κ : ℝ} (hκ : 0 < κ) (hw : a.wave = some κ) (t : ℕ → ℤ) (c : Cell)
    (s : ℕ → Fin N → V3) (o : ℕ → Option (Fin N → Quat)) (ho : Motion.Unit o) (n : ℕ) (k : ι)
    (file : File (Rec ι (Dict Quantity Val) (Dict String ℤ) ν)) :
    (∃ file', processFile (env a (.ok v)) (some ((gframes t (fun _ => c.array) s o n).map
      (fun f => ([k], f)), none)) true file = (file', .ok none)) ↔ 10 ≤ N := by
  refine ⟨fun ⟨file', h⟩ => ?_, fun h => C94_any_size_partial h a v hmol hdef hκ hw t c s o n k file⟩
  by_contra hlt
  obtain ⟨b, hb⟩ : ∃ b, createFreudBox c.array (decide (a.mol.dimensions = 2)) = .ok b := ⟨_, rfl⟩
  obtain ⟨rest, hrest⟩ : ∃ rest, (gframes t (fun _ => c.array) s o n).map (fun f => ([k], f)) =
      ([k], gf t (fun _ => c.array) s o 0) :: rest := by
    refine ⟨((List.range n).map (fun i => gf t (fun _ => c.array) s o (i + 1))).map
      (fun f => ([k], f)), ?_⟩
    unfold gframes
    rw [List.range_succ_eq_map]
    simp [Function.comp_def]
  rw [hrest, C94_small_systems hN (by omega) a (.ok v) (b := b) hκ hdef ho hb (by rw [hw]; rfl) k rest
    none file] at h
  cases h

/-- Nine molecules at rest are refused, ten accepted. -/
example (N : ℕ) (hN : N = 9 ∨ N = 10) :
    (∃ file', processFile (env (⟨fun _ => [], fun _ _ => .error .valueError, trimerMol, some 1, false,
      none⟩ : Args) (.ok ())) (some ((gframes (fun i => i) (fun _ => (⟨1, 1, 1, 0, 0, 0, true⟩ : Cell).array)
        (fun _ (_ : Fin N) => (0 : V3)) (fun _ => none) 3).map (fun f => ([0], f)), none)) true
        ([] : File (Rec ℕ (Dict Quantity Val) (Dict String ℤ) Unit)) = (file', .ok none)) ↔ 10 ≤ N :=
  C94_exactly (by omega) _ () (by simp [trimerMol, Molecule.trimer, Molecule.Arg.isNumber,
    Molecule.initMolecule, Molecule.trimerPositions]) rfl one_pos rfl _ _ _ _
    (by intro i q hq; cases hq) 3 0 []

end Verif.Pipeline
