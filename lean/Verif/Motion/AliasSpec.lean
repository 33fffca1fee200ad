import Verif.Motion.AliasModel
import Verif.Motion.Spec
/-!
# What it means that only the values count
-/

namespace Verif.Motion

/-- The frames a program adds, as they are when they are added.  `h` is what the program itself has
put in its arrays. -/
def framesAdded : Memory → List Cmd → List Frame
  | _, [] => []
  | h, .write a v :: cs => framesAdded (h.setVec a v) cs
  | h, .writeQ a v :: cs => framesAdded (h.setQuat a v) cs
  | h, .add p o :: cs => (h.vec p, o.map h.quat) :: framesAdded h cs

/-- The program does not touch the arrays `aT` and `aR`, and leaves an array alone that it has
handed in with the last frame, `p` and `o` at the beginning. -/
def LeavesAlone (aT aR : ℕ) : ℕ → Option ℕ → List Cmd → Prop
  | _, _, [] => True
  | p, o, .write a _ :: cs => a ≠ aT ∧ a ≠ aR ∧ a ≠ p ∧ LeavesAlone aT aR p o cs
  | p, o, .writeQ a _ :: cs => o ≠ some a ∧ LeavesAlone aT aR p o cs
  | _, _, .add p' o' :: cs => p' ≠ aT ∧ p' ≠ aR ∧ LeavesAlone aT aR p' o' cs

/-- A program with one array for all positions: it is filled anew for each frame. -/
def oneBuffer (a : ℕ) : List (List V3) → List Cmd
  | [] => []
  | v :: vs => .write a v :: .add a none :: oneBuffer a vs

end Verif.Motion
