import Verif.Motion.AliasProps
/-!
# Exactly when an array that is filled again does no harm: C160
-/

namespace Verif.Motion

theorem sub_same (w : V3 → V3) : ∀ (d p q : List V3), d.length = p.length → p.length = q.length →
    (d = List.zipWith (fun t w => t - w) d ((List.zipWith (fun x y => x - y) p q).map w) ↔
      ∀ x ∈ p.zip q, w (x.1 - x.2) = 0)
  | [], [], [], _, _ => by simp
  | t :: d, x :: p, y :: q, h1, h2 => by
    simp only [List.length_cons, Nat.add_right_cancel_iff] at h1 h2
    simp only [List.zipWith_cons_cons, List.map_cons, List.cons.injEq, List.zip_cons_cons, List.forall_mem_cons]
    rw [sub_same w d p q h1 h2, eq_comm, sub_eq_self]

/-- **C160, exactly (one array for two frames).**  When the array of positions is filled anew for the next frame, the
displacements are those of the values iff no molecule has moved but by whole cells. -/
theorem C160_exactly (a : ℕ) (v : List V3) (h : Memory) (m : Held)
    (hTR : m.deltaT ≠ m.deltaR) (h1 : a ≠ m.deltaT) (h2 : a ≠ m.deltaR) (hp : m.prevPos = a)
    (ho : m.prevOri = none) (hlen : v.length = (h.vec m.deltaT).length)
    (hlen' : (h.vec a).length = (h.vec m.deltaT).length) :
    ∃ t, addAll (m.value h) (framesAdded h (oneBuffer a [v])) = .ok t ∧
      (((runHeld h m (oneBuffer a [v])).2.1.value (runHeld h m (oneBuffer a [v])).1).deltaT = t.deltaT ↔
        ∀ x ∈ (h.vec a).zip v, m.box.wrap (x.1 - x.2) = 0) := by
  have hr := (C160_buffer a [v] h m hTR h1 h2 hp ho (by simpa using hlen)).2
  have e : transAdd (m.value h) v = .ok (List.zipWith (fun t w => t - w) (h.vec m.deltaT)
      ((List.zipWith (fun x y => x - y) (h.vec a) v).map m.box.wrap)) := by
    simp only [transAdd, Held.value, hp, bcast, inplace]
    rw [if_pos (by omega)]
    simp only
    rw [if_pos (by simp; omega)]
    simp only
    rw [if_pos (by simp; omega)]
  refine ⟨⟨m.box, List.zipWith (fun t w => t - w) (h.vec m.deltaT)
    ((List.zipWith (fun x y => x - y) (h.vec a) v).map m.box.wrap), h.vec m.deltaR, v, none⟩, ?_, ?_⟩
  · simp only [oneBuffer, framesAdded, addAll, Tracked.add, Memory.setVec, if_true, e, Option.map_none]
    simp [rotAdd, Held.value, ho]
  · rw [hr]
    exact sub_same m.box.wrap (h.vec m.deltaT) (h.vec a) v (by omega) (by omega)

/-- In `start` the array 2 of one position can be filled again, as `C160_values_refuted` does. -/
example : start.2.deltaT ≠ start.2.deltaR ∧ (2 : ℕ) ≠ start.2.deltaT ∧ (2 : ℕ) ≠ start.2.deltaR ∧ start.2.prevPos = 2 ∧
    start.2.prevOri = none ∧ (start.1.vec 2).length = (start.1.vec start.2.deltaT).length := by
  simp [start]

end Verif.Motion
