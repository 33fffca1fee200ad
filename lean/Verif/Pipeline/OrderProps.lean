import Verif.Pipeline.UnsignedProps
/-!
# Exactly which trajectories are analysed with unsigned steps: C117
-/

namespace Verif.Pipeline

open Verif.StepSize Verif.Motion Verif.Dynamics Verif.Relax Verif.Gsd Verif.Process Verif.Cache

variable {ι ν : Type} [DecidableEq ι]

/-- **C117, exactly.**  For frames that can all be analysed, so that the run with steps as integers returns
with a row for every frame of every keyframe, `process_file` returns if and only if no frame of a keyframe
is before its first; and then with the same file. -/
theorem C117_exactly (a : Args) (vars : Except PyErr ν) (pairs : List (List ι × GFrame PData))
    (file0 : File (Rec ι (Dict Quantity Val) (Dict String ℤ) ν))
    (out : Option (List (Rec ι (Dict Quantity Val) (Dict String ℤ) ν)))
    (h : processFile (env a vars) (some (pairs, none)) true [] = (file0, .ok out))
    (hall : (rows file0 "dynamics").length = (visitsOf (env a vars) pairs).length) :
    ((∃ file' out', processFile (env64 a vars) (some (pairs, none)) true [] = (file', .ok out')) ↔
      Forward (fun f => f.timestep) (visitsOf (env a vars) pairs)) ∧
    (processFile (env64 a vars) (some (pairs, none)) true [] = (file0, .ok out) ↔
      Forward (fun f => f.timestep) (visitsOf (env a vars) pairs)) := by
  have hr : Forward (fun f => f.timestep) (visitsOf (env a vars) pairs) →
      processFile (env64 a vars) (some (pairs, none)) true [] = (file0, .ok out) := fun hf => by
    rw [C117_forward_partial a vars pairs none true [] hf, h]
  have hl : (∃ file' out', processFile (env64 a vars) (some (pairs, none)) true [] = (file', .ok out')) →
      Forward (fun f => f.timestep) (visitsOf (env a vars) pairs) := by
    rintro ⟨file', out', h'⟩
    by_contra hn
    obtain ⟨file'', he, -⟩ := C117_backward a vars pairs none [] file0 out h hall hn
    rw [h'] at he
    simp at he
  exact ⟨⟨hl, fun hf => ⟨_, _, hr hf⟩⟩, ⟨fun he => hl ⟨_, _, he⟩, hr⟩⟩

/-- The run of frames that go back does not return. -/
example : ¬ ∃ file' out', processFile (env64 tA (.ok ())) (some (backPairs, none)) true [] =
    (file', .ok out') := by
  obtain ⟨file0, h1, h2, h3⟩ := back_meets
  exact fun h => h3 ((C117_exactly tA (.ok ()) backPairs file0 none h1 h2).1.1 h)

end Verif.Pipeline
