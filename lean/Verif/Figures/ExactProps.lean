import Verif.Figures.Props
import Verif.Figures.PlotLemmas
/-!
# Exactly when the columns of plot data stay aligned, C67
-/

namespace Verif.Figures

open Verif.Motion Quaternion
open Verif.Dynamics hiding Mol
open Verif.Frame (View)
open Verif.Molecule (Mol)

variable {C : Type}

/-- The lengths of arrays that numpy adds. -/
theorem bcast_length {α β γ : Type} (f : α → β → γ) (a : List α) (b : List β) (r : List γ)
    (h : bcast f a b = .ok r) : (a.length = b.length ∧ r.length = a.length) ∨
      (a.length = 1 ∧ r.length = b.length) ∨ (b.length = 1 ∧ r.length = a.length) := by
  unfold bcast at h
  split at h
  · rename_i hl
    obtain rfl := Except.ok.inj h
    exact Or.inl ⟨hl, by simp [hl]⟩
  · split at h
    · obtain rfl := Except.ok.inj h
      exact Or.inr (Or.inl ⟨rfl, by simp⟩)
    · obtain rfl := Except.ok.inj h
      exact Or.inr (Or.inr ⟨rfl, by simp⟩)
    · exact absurd h (by simp)

/-- When the radii are found, every particle has one. -/
theorem getRadii_ok (radii : Dict String ℝ) : ∀ (ps : List String) (rs : List ℝ),
    ps.foldr (fun p acc =>
      match Dict.get? radii p, acc with
      | none, _ => .error .keyError
      | some _, .error e => .error e
      | some r, .ok rs => .ok (r :: rs)) (.ok [] : Except PyErr (List ℝ)) = .ok rs →
    rs.length = ps.length ∧ ∀ i (hi : i < ps.length), ∃ r, Dict.get? radii ps[i] = some r := by
  intro ps
  induction ps with
  | nil =>
    intro rs h
    simp only [List.foldr_nil, Except.ok.injEq] at h
    subst h
    simp
  | cons p ps ih =>
    intro rs h
    rw [List.foldr_cons] at h
    split at h
    · exact absurd h (by simp)
    · exact absurd h (by simp)
    · rename_i r rs' hr hrs
      obtain rfl := Except.ok.inj h
      obtain ⟨h1, h2⟩ := ih rs' hrs
      refine ⟨by simp [h1], ?_⟩
      intro i hi
      cases i with
      | zero => exact ⟨r, hr⟩
      | succ i => exact h2 i (by simpa using hi)

/-- What a returned table says of the molecule. -/
theorem frame2data_inv (conv : Nat → Nat → Nat → C) {N : ℕ} (v : View)
    (pos : Fin N → V3) (q : Fin N → Quat) (hv : Holds v pos q) (mol : Mol)
    (orderFunction : Option (View → OrderArr)) (orderList : Option OrderArr) (categorical : Bool)
    (d : Data C) (h : frame2data conv v orderFunction orderList mol categorical = .ok d) :
    mol.positions ≠ [] ∧ (∀ t ∈ mol.particles, ∃ r, Dict.get? mol.radii t = some r) ∧
    ((mol.particles.length * N = mol.positions.length * N ∧ d.x.length = mol.particles.length * N) ∨
      (mol.particles.length * N = 1 ∧ d.x.length = mol.positions.length * N) ∨
      (mol.positions.length * N = 1 ∧ d.x.length = mol.particles.length * N)) ∧
    d.orientation.length = mol.particles.length * N := by
  have hboth : ¬ (orderFunction.isSome = true ∧ orderList.isSome = true) := by
    intro hb
    unfold frame2data at h
    rw [if_pos hb] at h
    cases h
  have hu : ∀ m, normSq (q m) = 1 := by
    by_contra hc
    push Not at hc
    obtain ⟨m, hm⟩ := hc
    unfold frame2data at h
    rw [if_neg hboth, hv.hq] at h
    unfold Angle.quaternion2z toEulerAll at h
    rw [if_neg (fun hall => hm (hall (q m) (by rw [List.mem_ofFn]; exact ⟨m, rfl⟩)))] at h
    cases h
  have hK : mol.positions ≠ [] := by
    intro h0
    unfold frame2data at h
    rw [if_neg hboth, hv.hq, quaternion2z_ofFn q hu] at h
    simp only at h
    split at h
    · cases h
    · simp only [orientation2positions, rotateAll, h0, List.length_nil, if_true, reduceCtorEq] at h
  have hrot : rotateAll v.orientation mol.positions = .ok (List.ofFn
      (fun n : Fin (mol.positions.length * N) => turned (q n.modNat) (mol.positions[n.divNat]))) := by
    have := rotateAll_ofFn (List.length_pos_iff.2 hK) q hu (fun i : Fin mol.positions.length => mol.positions[i])
    rw [hv.hq]
    rw [← this]
    simp
  unfold frame2data at h
  rw [if_neg hboth, hv.hq, quaternion2z_ofFn q hu] at h
  simp only at h
  split at h
  · cases h
  · rename_i cs hcs
    rw [← hv.hq] at h
    simp only [orientation2positions, hrot] at h
    split at h
    · cases h
    · rename_i ps hps
      split at h
      · cases h
      · rename_i rs hrs
        split at h
        · cases h
        · obtain rfl := Except.ok.inj h
          obtain ⟨-, hr⟩ := getRadii_ok mol.radii mol.particles rs hrs
          refine ⟨hK, ?_, ?_, ?_⟩
          · intro t ht
            obtain ⟨i, hi, rfl⟩ := List.mem_iff_getElem.1 ht
            exact hr i hi
          · have := bcast_length _ _ _ _ hps
            simpa [hv.hp, Molecule.Mol.numParticles] using this
          · simp [Molecule.Mol.numParticles]

/-- **C67, frames of several molecules.**  For a frame of two or more molecules nothing need be known of the
molecule: whenever `frame2data` returns, the molecule has a position and a radius for each of its particles and
the columns are aligned. -/
theorem C67_several (conv : Nat → Nat → Nat → C) {N : ℕ} (hN : 2 ≤ N) (v : View)
    (pos : Fin N → V3) (q : Fin N → Quat) (hv : Holds v pos q) (mol : Mol)
    (orderFunction : Option (View → OrderArr)) (orderList : Option OrderArr) (categorical : Bool)
    (hfit : Fits N v orderFunction orderList) (d : Data C)
    (h : frame2data conv v orderFunction orderList mol categorical = .ok d) :
    ∃ (b : Fin mol.positions.length → V3) (r : Fin mol.positions.length → ℝ) (ang : Fin N → ℝ)
      (col : Fin N → Paint C), Shape mol b r ∧ (∀ m, IsAngle (q m) (ang m)) ∧ Aligned d pos q b r ang col := by
  obtain ⟨hK, hr, hl, -⟩ := frame2data_inv conv v pos q hv mol orderFunction orderList categorical d h
  have hlen : mol.particles.length = mol.positions.length := by
    have hne : ∀ n : ℕ, n * N ≠ 1 := by
      intro n h1
      have := Nat.eq_one_of_mul_eq_one_left h1
      omega
    rcases hl with ⟨h1, -⟩ | ⟨h1, -⟩ | ⟨h1, -⟩
    · exact Nat.eq_of_mul_eq_mul_right (by omega) h1
    · exact absurd h1 (hne _)
    · exact absurd h1 (hne _)
  have hr' : ∀ p : Fin mol.positions.length, ∃ r, Dict.get? mol.radii
      (mol.particles[p.val]'(by rw [hlen]; exact p.2)) = some r := fun p => hr _ (List.getElem_mem _)
  choose r hr'' using hr'
  have hs : Shape mol (fun i : Fin mol.positions.length => mol.positions[i]) r :=
    ⟨by simp, hlen, fun p => ⟨_, List.getElem?_eq_getElem (by rw [hlen]; exact p.2), hr'' p⟩⟩
  obtain ⟨ang, col, h1, h2⟩ := C67_rows_partial conv (List.length_pos_iff.2 hK) v pos q hv mol _ r hs
    orderFunction orderList categorical hfit d h
  exact ⟨_, r, ang, col, hs, h1, h2⟩

/-- The hypotheses, for two molecules of a single particle. -/
example (conv : Nat → Nat → Nat → C) : ∃ (v : View) (pos : Fin 2 → V3) (q : Fin 2 → Quat) (mol : Mol)
    (d : Data C), Holds v pos q ∧ Fits 2 v none none ∧ frame2data conv v none none mol false = .ok d := by
  let pos : Fin 2 → V3 := ![(0, 0, 0), (1, 1, 0)]
  let q : Fin 2 → Quat := fun _ => 1
  let v : View := ⟨List.ofFn pos, [], [], [], List.ofFn q, none, 0, [3, 3, 1], 2, 2⟩
  have hv : Holds v pos q := ⟨rfl, rfl, rfl⟩
  have hs : Shape (Molecule.molecule ["A"] [(0, 0, 0)] []) (K := 1) (fun _ => (0, 0, 0)) (fun _ => 1) := by
    refine ⟨?_, rfl, ?_⟩
    · simp [Molecule.molecule, Molecule.initMolecule, Molecule.centre]
      rfl
    · intro p
      have : p.val = 0 := by omega
      rw [this]
      exact ⟨"A", rfl, by simp [Molecule.molecule, Molecule.initMolecule, Dict.setdefault, Dict.get?, Dict.mem, Dict.set]⟩
  obtain ⟨d, hd⟩ := (C67_returns conv (by omega) v pos q hv (by simp [q]) _ _ _ hs).1
  exact ⟨v, pos, q, _, d, hv, ⟨by simp, by simp⟩, hd⟩

/-- **C67, exactly.**  When `frame2data` returns for a frame that is not empty, the positions and the
orientations have columns of the same length iff the molecule has as many particles as positions, or there is
one molecule with a single position. -/
theorem C67_exactly (conv : Nat → Nat → Nat → C) {N : ℕ} (hN : 1 ≤ N) (v : View)
    (pos : Fin N → V3) (q : Fin N → Quat) (hv : Holds v pos q) (mol : Mol)
    (orderFunction : Option (View → OrderArr)) (orderList : Option OrderArr) (categorical : Bool)
    (d : Data C) (h : frame2data conv v orderFunction orderList mol categorical = .ok d) :
    d.x.length = d.orientation.length ↔
      mol.particles.length = mol.positions.length ∨ (N = 1 ∧ mol.positions.length = 1) := by
  obtain ⟨hK, hr, hl, ho⟩ := frame2data_inv conv v pos q hv mol orderFunction orderList categorical d h
  rw [ho]
  have hcancel : ∀ a b : ℕ, a * N = b * N ↔ a = b := fun a b =>
    ⟨fun h => Nat.eq_of_mul_eq_mul_right (by omega) h, fun h => by rw [h]⟩
  have hone : ∀ a : ℕ, a * N = 1 ↔ N = 1 ∧ a = 1 := by
    intro a
    rw [mul_eq_one]
    tauto
  rcases hl with ⟨h1, h2⟩ | ⟨h1, h2⟩ | ⟨h1, h2⟩
  · rw [h2]
    exact ⟨fun _ => Or.inl ((hcancel _ _).1 h1), fun _ => rfl⟩
  · obtain ⟨g1, g2⟩ := (hone _).1 h1
    subst g1
    rw [h2, g2]
    omega
  · obtain ⟨g1, g2⟩ := (hone _).1 h1
    rw [h2]
    exact ⟨fun _ => Or.inr ⟨g1, g2⟩, fun _ => rfl⟩

/-- A frame of one disc. -/
example (conv : Nat → Nat → Nat → C) :
    Holds (N := 1) ⟨[(1, 2, 0)], [1], [2], [0], [1], none, 0, [1, 1, 1], 2, 1⟩
      (fun _ => (1, 2, 0)) (fun _ => 1) ∧
    ∃ d, frame2data conv ⟨[(1, 2, 0)], [1], [2], [0], [1], none, 0, [1, 1, 1], 2, 1⟩ none
      (some (.strs ["a"])) Molecule.disc true = .ok d := by
  obtain ⟨d, hd, -⟩ := frame2data_disc conv "a"
  exact ⟨⟨by simp, by simp, rfl⟩, d, hd⟩

end Verif.Figures
