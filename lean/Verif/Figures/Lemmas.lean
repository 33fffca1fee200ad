import Mathlib.Data.List.Forall2
import Verif.Angle.Lemmas
import Verif.Figures.Spec
/-!
# Lemmas on figures
-/

namespace Verif.Figures

open Verif.Motion Quaternion
open Verif.Dynamics hiding Mol
open Verif.Frame (View)
open Verif.Molecule (Mol)
open Verif.Angle

variable {C : Type}

theorem row_ofFn {α : Type} {K N : ℕ} (f : Fin K → Fin N → α) (p : Fin K) (m : Fin N) :
    (List.ofFn (fun n : Fin (K * N) => f n.divNat n.modNat))[p.val * N + m.val]? = some (f p m) := by
  have h : finProdFinEquiv.symm (finProdFinEquiv (p, m)) = (p, m) := Equiv.symm_apply_apply _ _
  rw [finProdFinEquiv_symm_apply, Prod.mk.injEq] at h
  have e : (finProdFinEquiv (p, m)).val = p.val * N + m.val := by
    rw [finProdFinEquiv_apply_val, Nat.mul_comm N, Nat.add_comm]
  have hlt : p.val * N + m.val < K * N := e ▸ (finProdFinEquiv (p, m)).isLt
  rw [List.getElem?_eq_getElem (by simpa using hlt), List.getElem_ofFn]
  have e' : (⟨p.val * N + m.val, hlt⟩ : Fin (K * N)) = finProdFinEquiv (p, m) := Fin.ext e.symm
  simp only [e', h.1, h.2]

theorem radii_fold (d : Dict String ℝ) (ps : List String) (rs : List ℝ)
    (h : List.Forall₂ (fun t x => Dict.get? d t = some x) ps rs) :
    ps.foldr (fun p acc =>
      match Dict.get? d p, acc with
      | none, _ => .error .keyError
      | some _, .error e => .error e
      | some r, .ok rs => .ok (r :: rs)) (.ok []) = (.ok rs : Except PyErr (List ℝ)) := by
  induction h with
  | nil => rfl
  | cons h1 _ ih => rw [List.foldr_cons, ih, h1]

theorem getRadii_shape {m : Mol} {K : ℕ} {b : Fin K → V3} {r : Fin K → ℝ} (h : Shape m b r) :
    m.getRadii = .ok (List.ofFn r) := by
  refine radii_fold _ _ _ ?_
  rw [List.forall₂_iff_get]
  refine ⟨by simp [h.hk], ?_⟩
  intro i h1 h2
  obtain ⟨t, ht1, ht2⟩ := h.hr ⟨i, h.hk ▸ h1⟩
  simp only at ht1
  rw [List.getElem?_eq_getElem h1, Option.some.injEq] at ht1
  simp only [List.get_eq_getElem, List.getElem_ofFn, ht1, ht2]

theorem quaternion2z_ofFn {N : ℕ} (q : Fin N → Quat) (hu : ∀ m, normSq (q m) = 1) :
    quaternion2z (List.ofFn q) = .ok (List.ofFn (fun m => (toEuler (q m)).1)) := by
  unfold quaternion2z toEulerAll
  rw [if_pos]
  · simp [Function.comp_def]
  · intro a ha
    rw [List.mem_ofFn] at ha
    obtain ⟨i, rfl⟩ := ha
    exact hu i

theorem isAngle_toEuler (q : Quat) : IsAngle q (toEuler q).1 := by
  refine ⟨(toEuler_mem q).1, (toEuler_mem q).2, ?_⟩
  rintro θ rfl
  rw [toEuler_zRot_general]
  exact arctan2_sin_cos θ

theorem npRepeat_ofFn {α : Type} {K : ℕ} (N : ℕ) (r : Fin K → α) :
    npRepeat (List.ofFn r) N = .ok (List.ofFn (fun n : Fin (K * N) => r n.divNat)) := by
  unfold npRepeat
  rw [if_neg (by omega)]
  congr 1
  rw [List.flatMap_def, map_ofFn']
  simp only [Int.toNat_natCast, replicate_eq_ofFn]
  rw [flatten_ofFn (fun p (_ : Fin N) => r p)]

/-- The result of `frame2data` given the colours of the molecules. -/
theorem frame2data_ok (conv : Nat → Nat → Nat → C) {K N : ℕ} (hK : 0 < K) {v : View}
    {pos : Fin N → V3} {q : Fin N → Quat} (hv : Holds v pos q) (hu : ∀ m, normSq (q m) = 1)
    {mol : Mol} {b : Fin K → V3} {r : Fin K → ℝ} (hs : Shape mol b r)
    (orderFunction : Option (View → OrderArr)) (orderList : Option OrderArr) (categorical : Bool)
    (hboth : ¬ (orderFunction.isSome = true ∧ orderList.isSome = true)) (col : Fin N → Paint C)
    (hcol : colours conv orderFunction orderList categorical v
      (List.ofFn (fun m => (toEuler (q m)).1)) = .ok (List.ofFn col)) :
    ∃ d, frame2data conv v orderFunction orderList mol categorical = .ok d ∧
      Aligned d pos q b r (fun m => (toEuler (q m)).1) col := by
  have hpart : mol.numParticles = K := hs.hk
  unfold frame2data
  rw [if_neg hboth, hv.hq, quaternion2z_ofFn q hu]
  simp only [hcol]
  rw [hpart, hs.hb, hv.hp, orientation2positions_ofFn hK pos q hu b]
  simp only
  rw [getRadii_shape hs]
  simp only
  rw [hv.hlen, npRepeat_ofFn]
  refine ⟨_, rfl, ?_⟩
  have e1 : (List.replicate K (List.ofFn fun m => (toEuler (q m)).1)).flatten =
      List.ofFn (fun n : Fin (K * N) => (toEuler (q n.modNat)).1) := tile_ofFn _
  have e2 : (List.replicate K (List.ofFn col)).flatten =
      List.ofFn (fun n : Fin (K * N) => col n.modNat) := tile_ofFn _
  constructor
  · simp [Nat.mul_comm]
  · simp [Nat.mul_comm]
  · simp [e1, Nat.mul_comm]
  · simp [Nat.mul_comm]
  · simp [e2, Nat.mul_comm]
  · intro p m
    simp only [map_ofFn']
    exact row_ofFn (fun p m => (pos m + turned (q m) (b p)).1) p m
  · intro p m
    simp only [map_ofFn']
    exact row_ofFn (fun p m => (pos m + turned (q m) (b p)).2.1) p m
  · intro p m
    rw [e1]
    exact row_ofFn (fun _ m => (toEuler (q m)).1) p m
  · intro p m
    simp only [map_ofFn']
    exact row_ofFn (fun p _ => r p * (98 / 100)) p m
  · intro p m
    rw [e2]
    exact row_ofFn (fun _ m => col m) p m

/-! ### Colours -/

theorem astypeInt_whole (a : ℝ) : WholeDegrees a (astypeInt (a * 180 / Real.pi)) := by
  unfold WholeDegrees astypeInt
  generalize a * 180 / Real.pi = x
  by_cases h : 0 ≤ x
  · rw [if_pos h, abs_of_nonneg h]
    have h0 : (0 : ℝ) ≤ ⌊x⌋ := by exact_mod_cast Int.floor_nonneg.2 h
    rw [abs_of_nonneg h0]
    exact ⟨Int.floor_le x, Int.lt_floor_add_one x, mul_nonneg h0 h⟩
  · rw [if_neg h]
    push Not at h
    have h0 : (⌈x⌉ : ℝ) ≤ 0 := by
      have : ⌈x⌉ ≤ 0 := Int.ceil_le.2 (by simpa using h.le)
      exact_mod_cast this
    rw [abs_of_neg h, abs_of_nonpos h0]
    have h1 := Int.le_ceil x
    have h2 := Int.ceil_lt_add_one x
    refine ⟨by linarith, by linarith, mul_nonneg_of_nonpos_of_nonpos h0 h.le⟩

theorem wholeDegrees_le (a : ℝ) (h : |a| ≤ Real.pi) (n : Int) (hn : WholeDegrees a n) :
    -180 ≤ n ∧ n ≤ 180 := by
  have hp := Real.pi_pos
  have h1 : |a * 180 / Real.pi| ≤ 180 := by
    rw [abs_div, abs_mul, abs_of_pos hp, div_le_iff₀ hp]
    have : |(180 : ℝ)| = 180 := abs_of_pos (by norm_num)
    rw [this]
    nlinarith
  have h2 : |(n : ℝ)| ≤ 180 := hn.1.trans h1
  rw [abs_le] at h2
  constructor
  · exact_mod_cast h2.1
  · exact_mod_cast h2.2

theorem getElem?_createColours (conv : Nat → Nat → Nat → C) (light : Bool) (h : Nat)
    (hh : h < 360) : (createColours conv light)[h]? =
      some (if light then conv h 80 80 else conv h 100 60) := by
  simp [createColours, hh]

theorem npIndex_shade (conv : Nat → Nat → Nat → C) (light : Bool) (a : ℝ) (h : |a| ≤ Real.pi) :
    ∃ c, npIndex (createColours conv light) (astypeInt (a * 180 / Real.pi)) = .ok c ∧
      Shade conv light a c := by
  have hw := astypeInt_whole a
  have hb := wholeDegrees_le a h _ hw
  generalize astypeInt (a * 180 / Real.pi) = n at *
  have hl : (createColours conv light).length = 360 := by simp [createColours]
  unfold npIndex
  by_cases h0 : 0 ≤ n
  · rw [if_pos h0, getElem?_createColours conv light n.toNat (by omega)]
    exact ⟨_, rfl, n, n.toNat, hw, by omega, by omega, rfl⟩
  · rw [if_neg h0, hl, if_pos (by push_cast; omega),
      getElem?_createColours conv light _ (by push_cast; omega)]
    exact ⟨_, rfl, n, _, hw, by push_cast; omega, by push_cast; omega, rfl⟩

theorem mapM_forall {α β : Type} (f : α → Except PyErr β) (R : α → β → Prop) (l : List α)
    (h : ∀ x ∈ l, ∃ y, f x = .ok y ∧ R x y) : ∃ ys, l.mapM f = .ok ys ∧ List.Forall₂ R l ys := by
  induction l with
  | nil => exact ⟨[], rfl, .nil⟩
  | cons a l ih =>
    obtain ⟨y, hy, hr⟩ := h a (by simp)
    obtain ⟨ys, hys, hrs⟩ := ih (fun x hx => h x (by simp [hx]))
    refine ⟨y :: ys, ?_, .cons hr hrs⟩
    rw [List.mapM_cons, hy, hys]
    rfl

theorem forall₂_ofFn {α β : Type} {N : ℕ} {R : α → β → Prop} {a : Fin N → α} {l : List β}
    (h : List.Forall₂ R (List.ofFn a) l) : ∃ b : Fin N → β, l = List.ofFn b ∧ ∀ i, R (a i) (b i) := by
  have hl : l.length = N := by simpa using h.length_eq.symm
  subst hl
  refine ⟨fun i => l[i], by simp, fun i => ?_⟩
  rw [List.forall₂_iff_get] at h
  have := h.2 i.val (by simp) i.isLt
  simpa using this

theorem colourOrientation_ofFn (conv : Nat → Nat → Nat → C) {N : ℕ} (ang : Fin N → ℝ)
    (h : ∀ m, |ang m| ≤ Real.pi) (light : Bool) :
    ∃ c : Fin N → C, colourOrientation conv (List.ofFn ang) light = .ok (List.ofFn c) ∧
      ∀ m, Shade conv light (ang m) (c m) := by
  obtain ⟨ys, h1, h2⟩ := mapM_forall
    (fun a => npIndex (createColours conv light) (astypeInt (a * 180 / Real.pi)))
    (Shade conv light) (List.ofFn ang) (by
      intro a ha
      rw [List.mem_ofFn] at ha
      obtain ⟨i, rfl⟩ := ha
      exact npIndex_shade conv light _ (h i))
  obtain ⟨c, rfl, hc⟩ := forall₂_ofFn h2
  exact ⟨c, h1, hc⟩

theorem maskedSet_ofFn {N : ℕ} (dark light : Fin N → C) (mask : Fin N → Bool) :
    maskedSet (List.ofFn dark) (List.ofFn light) (.bools (List.ofFn mask)) =
      .ok (List.ofFn (fun m => if mask m then light m else dark m)) := by
  unfold maskedSet
  simp only
  rw [if_pos (by simp)]
  congr 1
  apply List.ext_getElem
  · simp
  · intro i h1 h2
    simp

end Verif.Figures
