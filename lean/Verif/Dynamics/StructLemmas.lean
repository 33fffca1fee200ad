import Mathlib.Data.List.OfFn
import Mathlib.Data.Fintype.Fin
import Mathlib.Logic.Equiv.Fin.Basic
import Verif.Dynamics.Lemmas
/-!
# Lemmas on particle positions and the structural relaxation of particles
-/

namespace Verif.Dynamics

open Verif.Motion Quaternion

theorem rotate_eq (q : Quat) (v : V3) : rotate q v = turned q v := by
  unfold rotate turned qVec
  have h0 : (vecQ v).re = 0 := rfl
  have h1 : (vecQ v).imI = v.1 := rfl
  have h2 : (vecQ v).imJ = v.2.1 := rfl
  have h3 : (vecQ v).imK = v.2.2 := rfl
  simp only [Quaternion.re_mul, Quaternion.imI_mul, Quaternion.imJ_mul, Quaternion.imK_mul,
    Quaternion.re_star, Quaternion.imI_star, Quaternion.imJ_star, Quaternion.imK_star, h0, h1, h2, h3]
  refine Prod.ext ?_ (Prod.ext ?_ ?_) <;> simp only <;> ring

theorem turned_one (v : V3) : turned 1 v = v := by
  unfold turned
  simp

theorem mapM_ok {α β : Type} (f : α → Except PyErr β) (g : α → β) (l : List α)
    (h : ∀ x ∈ l, f x = .ok (g x)) : l.mapM f = .ok (l.map g) := by
  induction l with
  | nil => rfl
  | cons a l ih =>
    rw [List.mapM_cons, h a (by simp), ih (fun x hx => h x (by simp [hx]))]
    rfl

theorem flatten_ofFn {α : Type} {K N : ℕ} (f : Fin K → Fin N → α) :
    (List.ofFn (fun p => List.ofFn (fun m => f p m))).flatten =
      List.ofFn (fun n : Fin (K * N) => f n.divNat n.modNat) := by
  rw [List.ofFn_mul]
  congr 2
  funext p
  congr 1
  funext m
  have h : finProdFinEquiv.symm (finProdFinEquiv (p, m)) = (p, m) := Equiv.symm_apply_apply _ _
  rw [finProdFinEquiv_symm_apply] at h
  have e : (finProdFinEquiv (p, m)).val = p.val * N + m.val := by
    rw [finProdFinEquiv_apply_val, Nat.mul_comm N, Nat.add_comm]
  have e' : (⟨p.val * N + m.val, e ▸ (finProdFinEquiv (p, m)).isLt⟩ : Fin (K * N)) =
      finProdFinEquiv (p, m) := Fin.ext e.symm
  rw [e']
  rw [Prod.mk.injEq] at h
  rw [h.1, h.2]

theorem rotateAll_ofFn {K N : ℕ} (hK : 0 < K) (q : Fin N → Quat) (hq : ∀ m, normSq (q m) = 1)
    (v : Fin K → V3) :
    rotateAll (List.ofFn q) (List.ofFn v) =
      .ok (List.ofFn (fun n : Fin (K * N) => turned (q n.modNat) (v n.divNat))) := by
  unfold rotateAll
  rw [if_neg (by simp; omega)]
  rw [mapM_ok _ (fun v => List.ofFn (fun m => turned (q m) v))]
  · simp only [map_ofFn']
    rw [flatten_ofFn (fun p m => turned (q m) (v p))]
  · intro x _
    unfold rotateVectors
    rw [if_pos]
    · rw [map_ofFn']
      simp only [rotate_eq]
    · intro a ha
      rw [List.mem_ofFn] at ha
      obtain ⟨i, rfl⟩ := ha
      exact hq i

/-- The row of the array of positions that `np.repeat` puts at index `n`. -/
def repeatIx {K N : ℕ} (n : Fin (K * N)) : Fin N :=
  ⟨n.val / K, Nat.div_lt_of_lt_mul n.isLt⟩

theorem replicate_eq_ofFn {α : Type} (K : ℕ) (a : α) :
    List.replicate K a = List.ofFn (fun _ : Fin K => a) := by
  rw [List.ofFn_const]

theorem repeat_ofFn {α : Type} {K N : ℕ} (pos : Fin N → α) :
    (List.ofFn pos).flatMap (fun p => List.replicate K p) =
      List.ofFn (fun n : Fin (K * N) => pos (repeatIx n)) := by
  rw [List.flatMap_def, map_ofFn']
  simp only [replicate_eq_ofFn]
  rw [flatten_ofFn (fun m (_ : Fin K) => pos m)]
  apply List.ext_getElem
  · simp [Nat.mul_comm]
  · intro i h1 h2
    simp only [List.getElem_ofFn]
    rfl

theorem tile_ofFn {α : Type} {K N : ℕ} (pos : Fin N → α) :
    (List.replicate K (List.ofFn pos)).flatten =
      List.ofFn (fun n : Fin (K * N) => pos n.modNat) := by
  rw [replicate_eq_ofFn, flatten_ofFn (fun (_ : Fin K) m => pos m)]

theorem molecule2particles_ofFn {K N : ℕ} (hK : 0 < K) (hN : 0 < N) (pos : Fin N → V3)
    (q : Fin N → Quat) (hq : ∀ m, normSq (q m) = 1) (v : Fin K → V3) :
    molecule2particles (List.ofFn pos) (List.ofFn q) (List.ofFn v) =
      .ok (List.ofFn (fun n : Fin (K * N) =>
        turned (q n.modNat) (v n.divNat) + pos (repeatIx n))) := by
  unfold molecule2particles
  rw [if_neg]
  · simp only [List.length_ofFn]
    rw [rotateAll_ofFn hK q hq v]
    simp only
    rw [repeat_ofFn, bcast_ofFn]
  · intro h
    have := h (q ⟨0, hN⟩) (by rw [List.mem_ofFn]; exact ⟨_, rfl⟩)
    have h2 := hq ⟨0, hN⟩
    rw [this] at h2
    simp at h2

theorem orientation2positions_ofFn {K N : ℕ} (hK : 0 < K) (pos : Fin N → V3)
    (q : Fin N → Quat) (hq : ∀ m, normSq (q m) = 1) (v : Fin K → V3) :
    orientation2positions K (List.ofFn v) (List.ofFn pos) (List.ofFn q) =
      .ok (List.ofFn (fun n : Fin (K * N) =>
        pos n.modNat + turned (q n.modNat) (v n.divNat))) := by
  unfold orientation2positions
  rw [rotateAll_ofFn hK q hq v]
  simp only
  rw [tile_ofFn, bcast_ofFn]

theorem length_filter_ofFn {N : ℕ} {α : Type} (f : Fin N → α) (p : α → Prop) [DecidablePred p] :
    ((List.ofFn f).filter (fun x => decide (p x))).length =
      (Finset.univ.filter (fun m => p (f m))).card := by
  induction N with
  | zero => simp
  | succ n ih =>
    rw [List.ofFn_succ, List.filter_cons, Fin.card_filter_univ_succ, ← ih (fun i => f i.succ)]
    by_cases h : p (f 0) <;> simp [h]

theorem normSq_qz (a : ℝ) : normSq (qz a) = 1 := by
  rw [normSq_def']; unfold qz; simp

theorem normSq_qy (a : ℝ) : normSq (qy a) = 1 := by
  rw [normSq_def']; unfold qy; simp

theorem normSq_qx (a : ℝ) : normSq (qx a) = 1 := by
  rw [normSq_def']; unfold qx; simp

theorem normSq_fromEuler (a b c : ℝ) : normSq (fromEuler a b c) = 1 := by
  unfold fromEuler
  simp [normSq_qz, normSq_qy, normSq_qx]

/-- The rotation that `compute_struct_relax` applies for the tracked rotation `r`. -/
noncomputable def structQuat (r : V3) : Quat := fromEuler r.2.2 r.2.1 r.1

open Classical in
theorem structRelax_ofFn {K N : ℕ} (hK : 0 < K) (hN : 0 < N) (D : Dyn) (d r : Fin N → V3)
    (hd : D.motion.deltaT = List.ofFn d) (hr : D.motion.deltaR = List.ofFn r)
    (v : Fin K → V3) (hv : D.molVector = some (List.ofFn v)) (hn : D.numParticles = N)
    (dist : ℝ) (hdist : D.distance = .ok (some dist)) :
    D.structRelax = .ok (((Finset.univ.filter (fun n : Fin (K * N) =>
      len (turned (structQuat (r n.modNat)) (v n.divNat) + d (repeatIx n) - v n.divNat) <
        dist)).card : ℝ) / (K * N)) := by
  unfold Dyn.structRelax
  rw [hdist, hv, hd, hr, hn]
  simp only [map_ofFn']
  rw [molecule2particles_ofFn hK hN d _ (fun m => normSq_fromEuler _ _ _) v]
  unfold zeroQuaternion
  rw [replicate_eq_ofFn, molecule2particles_ofFn hK hN _ _ (fun m => by simp) v]
  simp only [bcast_ofFn, turned_one, add_zero, norm3_eq]
  unfold fraction
  rw [length_filter_ofFn _ (fun x => x < dist)]
  simp only [structQuat, List.length_ofFn, Nat.cast_mul]
  congr!

end Verif.Dynamics
