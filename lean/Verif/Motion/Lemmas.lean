import Mathlib.Algebra.BigOperators.Group.Finset.Basic
import Mathlib.Algebra.BigOperators.Intervals
import Mathlib.Tactic.Linarith
import Mathlib.Tactic.Ring
import Mathlib.Tactic.FieldSimp
import Verif.Motion.Spec
/-!
# Lemmas on tracked motion
-/

namespace Verif.Motion

open Quaternion

theorem zipWith_ofFn {α β γ : Type} {N : ℕ} (f : α → β → γ) (a : Fin N → α) (b : Fin N → β) :
    List.zipWith f (List.ofFn a) (List.ofFn b) = List.ofFn (fun i => f (a i) (b i)) := by
  apply List.ext_getElem
  · simp
  · intro i h1 h2
    simp

theorem map_ofFn' {α β : Type} {N : ℕ} (f : α → β) (a : Fin N → α) :
    (List.ofFn a).map f = List.ofFn (fun i => f (a i)) := by
  rw [List.map_ofFn]; rfl

theorem bcast_ofFn {α β γ : Type} {N : ℕ} (f : α → β → γ) (a : Fin N → α) (b : Fin N → β) :
    bcast f (List.ofFn a) (List.ofFn b) = .ok (List.ofFn (fun i => f (a i) (b i))) := by
  unfold bcast
  rw [if_pos (by simp), zipWith_ofFn]

theorem inplace_ofFn {α β : Type} {N : ℕ} (f : α → β → α) (a : Fin N → α) (b : Fin N → β) :
    inplace f (List.ofFn a) (List.ofFn b) = .ok (List.ofFn (fun i => f (a i) (b i))) := by
  unfold inplace
  rw [bcast_ofFn]
  simp

/-- The rotation counted between two frames. -/
noncomputable def rotInc {N : ℕ} (p q : Option (Fin N → Quat)) (m : Fin N) : V3 :=
  match p, q with
  | some p, some q => toEuler (q m * (p m)⁻¹)
  | _, _ => 0

theorem transAdd_ofFn {N : ℕ} (b : Box) (dT dR s s' : Fin N → V3) (o : Option (List Quat)) :
    transAdd ⟨b, List.ofFn dT, List.ofFn dR, List.ofFn s, o⟩ (List.ofFn s') =
      .ok (List.ofFn (fun m => dT m - b.wrap (s m - s' m))) := by
  unfold transAdd
  simp only [bcast_ofFn, map_ofFn', inplace_ofFn]

theorem rotAdd_ofFn {N : ℕ} (b : Box) (dT dR s : Fin N → V3) (o o' : Option (Fin N → Quat))
    (h : ∀ p, o = some p → ∀ m, normSq (p m) = 1) (h' : ∀ p, o' = some p → ∀ m, normSq (p m) = 1) :
    rotAdd ⟨b, List.ofFn dT, List.ofFn dR, List.ofFn s, o.map List.ofFn⟩ (o'.map List.ofFn) =
      .ok (List.ofFn (fun m => dR m + rotInc o o' m)) := by
  unfold rotAdd
  cases o with
  | none => simp [rotInc]
  | some p =>
    cases o' with
    | none => simp [rotInc]
    | some q =>
      have hp := h p rfl
      have hq := h' q rfl
      simp only [Option.map_some, rotStep, bcast_ofFn, toEulerAll]
      rw [if_pos]
      · simp only [map_ofFn', inplace_ofFn, rotInc]
      · intro x hx
        rw [List.mem_ofFn] at hx
        obtain ⟨i, rfl⟩ := hx
        simp [map_mul, hp i, hq i]

theorem add_ofFn {N : ℕ} (b : Box) (dT dR s s' : Fin N → V3) (o o' : Option (Fin N → Quat))
    (h : ∀ p, o = some p → ∀ m, normSq (p m) = 1) (h' : ∀ p, o' = some p → ∀ m, normSq (p m) = 1) :
    Tracked.add ⟨b, List.ofFn dT, List.ofFn dR, List.ofFn s, o.map List.ofFn⟩ (List.ofFn s')
        (o'.map List.ofFn) =
      (⟨b, List.ofFn (fun m => dT m - b.wrap (s m - s' m)),
        List.ofFn (fun m => dR m + rotInc o o' m), List.ofFn s', o'.map List.ofFn⟩, none) := by
  unfold Tracked.add
  rw [transAdd_ofFn, rotAdd_ofFn b dT dR s o o' h h']

theorem addAll_append (m : Tracked) (l l' : List Frame) :
    addAll m (l ++ l') = match addAll m l with
      | .ok m' => addAll m' l'
      | .error e => .error e := by
  induction l generalizing m with
  | nil => rfl
  | cons f fs ih =>
    simp only [List.cons_append, addAll]
    rcases m.add f.1 f.2 with ⟨m', _ | e⟩
    · exact ih m'
    · rfl

/-- The displacement counted after `n` further frames. -/
noncomputable def sumT {N : ℕ} (b : Box) (s : ℕ → Fin N → V3) (n : ℕ) (m : Fin N) : V3 :=
  -∑ i ∈ Finset.range n, b.wrap (s i m - s (i + 1) m)

/-- The rotation counted after `n` further frames. -/
noncomputable def sumR {N : ℕ} (o : ℕ → Option (Fin N → Quat)) (n : ℕ) (m : Fin N) : V3 :=
  ∑ i ∈ Finset.range n, rotInc (o i) (o (i + 1)) m

theorem frames_succ {N : ℕ} (s : ℕ → Fin N → V3) (o : ℕ → Option (Fin N → Quat)) (n : ℕ) :
    frames s o 1 (n + 2) = frames s o 1 (n + 1) ++ [frame s o (n + 1)] := by
  unfold frames frame
  rw [show n + 2 - 1 = (n + 1 - 1) + 1 by omega, List.range'_1_concat]
  simp [Nat.add_comm]

theorem track_closed {N : ℕ} (hN : 0 < N) (b : Box) (s : ℕ → Fin N → V3)
    (o : ℕ → Option (Fin N → Quat)) (ho : Unit o) (n : ℕ) :
    track b (frame s o 0) (frames s o 1 (n + 1)) =
      .ok ⟨b, List.ofFn (sumT b s n), List.ofFn (sumR o n), List.ofFn (s n),
        (o n).map List.ofFn⟩ := by
  have hnew : Tracked.new b (frame s o 0).1 (frame s o 0).2 =
      .ok ⟨b, List.ofFn (sumT b s 0), List.ofFn (sumR o 0), List.ofFn (s 0),
        (o 0).map List.ofFn⟩ := by
    have h0 : (List.ofFn (s 0)).map (fun _ => (0 : V3)) = List.ofFn (sumT b s 0) := by
      rw [map_ofFn']; congr 1; funext m; simp [sumT]
    have h1 : (List.ofFn (s 0)).map (fun _ => (0 : V3)) = List.ofFn (sumR o 0) := by
      rw [map_ofFn']; congr 1
    unfold Tracked.new frame
    cases h : o 0 with
    | none => simp only [Option.map_none]; rw [← h0, ← h1]
    | some q =>
      simp only [Option.map_some]
      rw [if_neg (by simp; omega), ← h0, ← h1]
  unfold track
  rw [hnew]
  simp only
  induction n with
  | zero => simp [frames, addAll]
  | succ n ih =>
    rw [frames_succ, addAll_append, ih]
    simp only [addAll, frame]
    rw [add_ofFn b _ _ _ _ _ _ (fun p hp => ho n p hp) (fun p hp => ho (n + 1) p hp)]
    simp only
    congr 2
    · congr 1
      funext m
      simp only [sumT, Finset.sum_range_succ]
      abel
    · congr 1
      funext m
      simp only [sumR, Finset.sum_range_succ]

/-! ## Wrapping -/

theorem wrap1_mem (t : ℝ) : -(1 / 2) ≤ wrap1 t ∧ wrap1 t < 1 / 2 := by
  unfold wrap1
  have h1 := Int.floor_le (t + 1 / 2)
  have h2 := Int.lt_floor_add_one (t + 1 / 2)
  constructor <;> linarith

theorem wrap1_of_mem {t : ℝ} {k : ℤ} (h1 : -(1 / 2) ≤ t) (h2 : t < 1 / 2) :
    wrap1 (t + k) = t := by
  unfold wrap1
  have : ⌊t + k + 1 / 2⌋ = k := by
    rw [Int.floor_eq_iff]
    constructor <;> linarith
  rw [this]
  ring

theorem createFreudBox_cell (c : Cell) :
    createFreudBox c.array c.is2D = .ok
      (if c.is2D then ⟨c.Lx, c.Ly, 0, c.xy, 0, 0, true⟩
        else ⟨c.Lx, c.Ly, c.Lz, c.xy, c.xz, c.yz, false⟩) := rfl

/-- The box the code makes of a cell. -/
def Cell.box (c : Cell) : Box :=
  if c.is2D then ⟨c.Lx, c.Ly, 0, c.xy, 0, 0, true⟩
    else ⟨c.Lx, c.Ly, c.Lz, c.xy, c.xz, c.yz, false⟩

theorem coord_box (c : Cell) (f : V3) : c.box.coord f = c.comb f.1 f.2.1 f.2.2 := by
  obtain ⟨Lx, Ly, Lz, xy, xz, yz, d⟩ := c
  cases d
  · simp [Cell.box, Box.coord, Cell.comb]
    ring_nf
    simp
  · simp [Cell.box, Box.coord, Cell.comb]
    ring_nf

theorem coord_frac (c : Cell) (hc : c.Proper) (v : V3) : c.box.coord (c.box.frac v) = c.flat v := by
  obtain ⟨Lx, Ly, Lz, xy, xz, yz, d⟩ := c
  obtain ⟨h1, h2, h3⟩ := hc
  obtain ⟨x, y, z⟩ := v
  have h1 : Lx ≠ 0 := ne_of_gt h1
  have h2 : Ly ≠ 0 := ne_of_gt h2
  cases d
  · have h3 : Lz ≠ 0 := ne_of_gt (h3 rfl)
    simp [Cell.box, Box.coord, Box.frac, Cell.flat]
    refine ⟨?_, ?_, ?_⟩ <;> (field_simp; try ring)
  · simp [Cell.box, Box.coord, Box.frac, Cell.flat]
    refine ⟨?_, ?_⟩ <;> (field_simp; try ring)

theorem frac_comb (c : Cell) (hc : c.Proper) (α β γ : ℝ) (v : V3)
    (h : c.flat v = c.comb α β γ) :
    c.box.frac v = (α, β, if c.is2D then 0 else γ) := by
  obtain ⟨Lx, Ly, Lz, xy, xz, yz, d⟩ := c
  obtain ⟨h1, h2, h3⟩ := hc
  obtain ⟨x, y, z⟩ := v
  have h1 : Lx ≠ 0 := ne_of_gt h1
  have h2 : Ly ≠ 0 := ne_of_gt h2
  cases d
  · have h3 : Lz ≠ 0 := ne_of_gt (h3 rfl)
    simp [Cell.flat, Cell.comb] at h
    obtain ⟨rfl, rfl, rfl⟩ := h
    simp [Cell.box, Box.frac]
    refine ⟨?_, ?_, ?_⟩ <;> (field_simp; try ring)
  · simp [Cell.flat, Cell.comb] at h
    obtain ⟨rfl, rfl⟩ := h
    simp [Cell.box, Box.frac]
    refine ⟨?_, ?_⟩ <;> (field_simp; try ring)

theorem flat_sub (c : Cell) (v w : V3) : c.flat (v - w) = c.flat v - c.flat w := by
  unfold Cell.flat
  split <;> simp

theorem flat_add (c : Cell) (v w : V3) : c.flat (v + w) = c.flat v + c.flat w := by
  unfold Cell.flat
  split <;> simp

theorem flat_flat (c : Cell) (v : V3) : c.flat (c.flat v) = c.flat v := by
  unfold Cell.flat
  split <;> rfl

theorem comb_sub (c : Cell) (a b d a' b' d' : ℝ) :
    c.comb a b d - c.comb a' b' d' = c.comb (a - a') (b - b') (d - d') := by
  unfold Cell.comb
  split <;> simp only [sub_smul] <;> abel

theorem comb_zero (c : Cell) : c.comb 0 0 0 = 0 := by
  unfold Cell.comb
  simp

theorem comb_neg (c : Cell) (a b d : ℝ) : -c.comb a b d = c.comb (-a) (-b) (-d) := by
  have := comb_sub c 0 0 0 a b d
  simpa [comb_zero] using this

theorem comb_add (c : Cell) (a b d a' b' d' : ℝ) :
    c.comb a b d + c.comb a' b' d' = c.comb (a + a') (b + b') (d + d') := by
  have := comb_sub c a b d (-a') (-b') (-d')
  rw [← comb_neg] at this
  simpa using this

theorem comb_2d (c : Cell) (a b d : ℝ) :
    c.comb a b d = c.comb a b (if c.is2D then 0 else d) := by
  unfold Cell.comb
  split <;> rfl

/-- Wrapping finds the image in the central cell. -/
theorem wrap_image (c : Cell) (hc : c.Proper) (v : V3) (α β γ : ℝ) (i j k : ℤ)
    (h1 : -(1 / 2) ≤ α ∧ α < 1 / 2) (h2 : -(1 / 2) ≤ β ∧ β < 1 / 2) (h3 : -(1 / 2) ≤ γ ∧ γ < 1 / 2)
    (h : c.flat v = c.comb (α + i) (β + j) (γ + k)) : c.box.wrap v = c.comb α β γ := by
  unfold Box.wrap
  rw [frac_comb c hc _ _ _ v h]
  simp only
  rw [wrap1_of_mem h1.1 h1.2, wrap1_of_mem h2.1 h2.2, coord_box]
  simp only
  rw [comb_2d c _ _ (wrap1 _), comb_2d c α β γ]
  split
  · rfl
  · rw [wrap1_of_mem h3.1 h3.2]

/-- Wrapping changes a vector by a lattice vector and gives one of the central cell. -/
theorem wrap_spec (c : Cell) (hc : c.Proper) (v : V3) :
    (∃ i j k : ℤ, c.box.wrap v = c.flat v - c.comb i j k) ∧
    (∃ α β γ : ℝ, (-(1 / 2) ≤ α ∧ α < 1 / 2) ∧ (-(1 / 2) ≤ β ∧ β < 1 / 2) ∧
      (-(1 / 2) ≤ γ ∧ γ < 1 / 2) ∧ c.box.wrap v = c.comb α β γ) := by
  constructor
  · refine ⟨⌊(c.box.frac v).1 + 1 / 2⌋, ⌊(c.box.frac v).2.1 + 1 / 2⌋,
      ⌊(c.box.frac v).2.2 + 1 / 2⌋, ?_⟩
    rw [← coord_frac c hc, coord_box, comb_sub]
    unfold Box.wrap
    rw [coord_box]
    rfl
  · refine ⟨wrap1 (c.box.frac v).1, wrap1 (c.box.frac v).2.1, wrap1 (c.box.frac v).2.2,
      wrap1_mem _, wrap1_mem _, wrap1_mem _, ?_⟩
    unfold Box.wrap
    rw [coord_box]

theorem Cell.Lattice.sub {c : Cell} {v w : V3} (hv : c.Lattice v) (hw : c.Lattice w) :
    c.Lattice (v - w) := by
  obtain ⟨i, j, k, rfl⟩ := hv
  obtain ⟨i', j', k', rfl⟩ := hw
  refine ⟨i - i', j - j', k - k', ?_⟩
  rw [comb_sub]
  push_cast
  rfl

theorem Cell.Lattice.zero (c : Cell) : c.Lattice 0 :=
  ⟨0, 0, 0, by simp [comb_zero]⟩

/-- One step shorter than half the cell is found again from the wrapped positions. -/
theorem wrap_step (c : Cell) (hc : c.Proper) (s s' u u' : V3)
    (hs : c.Lattice (c.flat (s - u))) (hs' : c.Lattice (c.flat (s' - u')))
    (hu : c.WithinHalf (c.flat (u' - u))) : c.box.wrap (s - s') = -c.flat (u' - u) := by
  obtain ⟨i, j, k, h⟩ := hs
  obtain ⟨i', j', k', h'⟩ := hs'
  obtain ⟨α, β, γ, ha, hb, hg, hu⟩ := hu
  rw [abs_lt] at ha hb hg
  rw [hu, comb_neg]
  apply wrap_image c hc _ _ _ _ (i - i') (j - j') (k - k')
  · constructor <;> linarith
  · constructor <;> linarith
  · constructor <;> linarith
  · have : s - s' = (s - u) - (s' - u') - (u' - u) := by abel
    rw [this, flat_sub, flat_sub, h, h', hu, comb_sub, comb_sub]
    push_cast
    congr 1 <;> ring

theorem sumT_unwrapped (c : Cell) (hc : c.Proper) {N : ℕ} (s u : ℕ → Fin N → V3) (m : Fin N)
    (n : ℕ) (hs : ∀ i ≤ n, c.Lattice (c.flat (s i m - u i m)))
    (hu : ∀ i < n, c.WithinHalf (c.flat (u (i + 1) m - u i m))) :
    sumT c.box s n m = c.flat (u n m - u 0 m) := by
  induction n with
  | zero =>
    simp only [sumT, Finset.range_zero, Finset.sum_empty, neg_zero, sub_self, Cell.flat]
    split <;> rfl
  | succ n ih =>
    have := ih (fun i hi => hs i (by omega)) (fun i hi => hu i (by omega))
    unfold sumT at this ⊢
    rw [Finset.sum_range_succ, neg_add, this,
      wrap_step c hc _ _ (u n m) (u (n + 1) m) (hs n (by omega)) (hs (n + 1) le_rfl)
        (hu n (by omega)), neg_neg, ← flat_add]
    congr 1
    abel

theorem sumT_lattice (c : Cell) (hc : c.Proper) {N : ℕ} (s : ℕ → Fin N → V3) (m : Fin N) (n : ℕ) :
    c.Lattice (sumT c.box s n m - c.flat (s n m - s 0 m)) := by
  induction n with
  | zero =>
    have : sumT c.box s 0 m - c.flat (s 0 m - s 0 m) = 0 := by simp [sumT, Cell.flat]
    rw [this]
    exact .zero c
  | succ n ih =>
    obtain ⟨⟨i, j, k, h⟩, -⟩ := wrap_spec c hc (s n m - s (n + 1) m)
    have h2 : c.Lattice (-c.comb i j k) := ⟨-i, -j, -k, by rw [comb_neg]; push_cast; rfl⟩
    have h3 := Cell.Lattice.sub ih h2
    have h4 : sumT c.box s (n + 1) m - c.flat (s (n + 1) m - s 0 m) =
        sumT c.box s n m - c.flat (s n m - s 0 m) - -c.comb i j k := by
      unfold sumT
      rw [Finset.sum_range_succ, h, flat_sub, flat_sub, flat_sub]
      abel
    rw [h4]
    exact h3

/-! ## Rotations about z -/

@[simp] theorem zRot_re (a : ℝ) : (zRot a).re = Real.cos (a / 2) := rfl
@[simp] theorem zRot_imI (a : ℝ) : (zRot a).imI = 0 := rfl
@[simp] theorem zRot_imJ (a : ℝ) : (zRot a).imJ = 0 := rfl
@[simp] theorem zRot_imK (a : ℝ) : (zRot a).imK = Real.sin (a / 2) := rfl

theorem zRot_mul (a b : ℝ) : zRot a * zRot b = zRot (a + b) := by
  ext
  · simp [add_div, Real.cos_add]
  · simp
  · simp
  · simp [add_div, Real.sin_add]; ring

theorem zRot_zero : zRot 0 = 1 := by
  unfold zRot
  ext <;> simp

theorem zRot_inv (a : ℝ) : (zRot a)⁻¹ = zRot (-a) := by
  apply inv_eq_of_mul_eq_one_right
  rw [zRot_mul, add_neg_cancel, zRot_zero]

theorem normSq_zRot (a : ℝ) : normSq (zRot a) = 1 := by
  rw [normSq_def']
  unfold zRot
  simp

theorem toEuler_neg (q : Quat) : toEuler (-q) = toEuler q := by
  unfold toEuler
  simp

theorem toEuler_zRot (θ : ℝ) (h : |θ| < Real.pi) : toEuler (zRot θ) = (θ, 0, 0) := by
  rw [abs_lt] at h
  have h1 : Real.cos (θ / 2) ^ 2 - Real.sin (θ / 2) ^ 2 = Real.cos θ := by
    rw [← Real.cos_two_mul']; congr 1; ring
  have h2 : 2 * (Real.cos (θ / 2) * Real.sin (θ / 2)) = Real.sin θ := by
    rw [← mul_assoc, mul_right_comm, ← Real.sin_two_mul]; congr 1; ring
  have h3 : arctan2 (Real.sin θ) (Real.cos θ) = θ := by
    unfold arctan2
    have : (⟨Real.cos θ, Real.sin θ⟩ : ℂ) = Complex.cos θ + Complex.sin θ * Complex.I := by
      apply Complex.ext <;> simp [Complex.cos_ofReal_re, Complex.sin_ofReal_re]
    rw [this, Complex.arg_cos_add_sin_mul_I ⟨h.1, h.2.le⟩]
  have h4 : arctan2 0 1 = 0 := by
    unfold arctan2
    exact Complex.arg_one
  unfold toEuler zRot
  simp [h1, h2, h3, h4]

end Verif.Motion
