import Mathlib.Tactic.NormNum
import Verif.Molecule.Props
import Verif.Pipeline.Lemmas
/-!
# C105: `Dynamics` and `Relaxations` follow the same motion
-/

namespace Verif.Pipeline

open Verif.Motion Verif.Dynamics

/-- A frame as given to `add`: the timestep, positions and orientations. -/
abbrev Given := ℤ × List V3 × Option (List Quat)

/-- The motion of a `Dynamics` after `add` of the frames; exceptions are caught, as in `process_file`. -/
noncomputable def dynAfter (d : Dyn) (l : List Given) : Dyn := l.foldl (fun d f => (d.add f.2.1 f.2.2).1) d

/-- The motion of a `Relaxations` after `add` of the frames; exceptions are caught. -/
noncomputable def relxAfter (r : Relx) (l : List Given) : Relx := l.foldl (fun r f => (r.add f.1 f.2.1 f.2.2).1) r

/-- The two objects have counted the same displacements and rotations. -/
def SameMotion (d : Dyn) (r : Relx) : Prop := d.motion.deltaT = r.motion.deltaT ∧ d.motion.deltaR = r.motion.deltaR

/-- The property as stated: constructed from the same arguments, and given the same frames, they count the
same motion. -/
def Twins : Prop :=
  ∀ (calcWave : Box → List V3 → Except PyErr ℝ) (t : ℤ) (box : List ℝ) (pos : List V3)
    (ori : Option (List Quat)) (mol : Option Dynamics.Mol) (k : Option ℝ) (d : Dyn) (r : Relx),
    Dyn.new t box pos ori mol k = .ok d → Relx.new calcWave t box pos ori mol k = .ok r →
    ∀ l : List Given, SameMotion (dynAfter d l) (relxAfter r l)

theorem relx_add_motion (r : Relx) (t : ℤ) (p : List V3) (o : Option (List Quat)) :
    (r.add t p o).1.motion = (r.motion.add p o).1 := by
  unfold Relx.add
  cases h : r.motion.add p o with
  | mk m e => cases e <;> rfl

theorem dynAfter_motion (d : Dyn) (l : List Given) :
    (dynAfter d l).motion = l.foldl (fun m f => (m.add f.2.1 f.2.2).1) d.motion := by
  unfold dynAfter
  induction l generalizing d with
  | nil => rfl
  | cons f l ih => exact ih _

theorem relxAfter_motion (r : Relx) (l : List Given) :
    (relxAfter r l).motion = l.foldl (fun m f => (m.add f.2.1 f.2.2).1) r.motion := by
  unfold relxAfter
  induction l generalizing r with
  | nil => rfl
  | cons f l ih =>
    simp only [List.foldl_cons]
    rw [ih, relx_add_motion]

theorem dyn_new_motion {t : ℤ} {box : List ℝ} {pos : List V3} {ori : Option (List Quat)}
    {mol : Option Dynamics.Mol} {k : Option ℝ} {d : Dyn} (hd : Dyn.new t box pos ori mol k = .ok d) :
    ∃ b, createFreudBox box (mol.all (fun m => decide (m.dimensions = 2))) = .ok b ∧
      Tracked.new b pos ori = .ok d.motion := by
  unfold Dyn.new at hd
  rcases mol with _ | mol
  all_goals
    simp only [Option.all_none, Option.all_some] at hd ⊢
    split at hd
    · cases hd
    · split at hd
      · cases hd
      · rename_i b hb
        split at hd
        · cases hd
        · rename_i m hm
          cases hd
          exact ⟨b, hb, hm⟩

theorem relx_new_motion {calcWave : Box → List V3 → Except PyErr ℝ} {t : ℤ} {box : List ℝ} {pos : List V3}
    {ori : Option (List Quat)} {mol : Option Dynamics.Mol} {k : Option ℝ} {r : Relx}
    (hr : Relx.new calcWave t box pos ori mol k = .ok r) :
    ∃ b, createFreudBox box (mol.any (fun m => decide (m.dimensions = 2))) = .ok b ∧
      Tracked.new b pos ori = .ok r.motion := by
  unfold Relx.new at hr
  rcases mol with _ | mol
  all_goals
    simp only [Option.any_none, Option.any_some] at hr ⊢
    split at hr
    · cases hr
    · rename_i b hb
      split at hr
      · cases hr
      · rename_i m hm
        split at hr
        · cases hr
        · split at hr
          · cases hr
          · split at hr
            · cases hr
            · cases hr
              exact ⟨b, hb, hm⟩

/-- How the objects start: both with the tracker of their own box. -/
theorem new_motion {calcWave : Box → List V3 → Except PyErr ℝ} {t : ℤ} {box : List ℝ} {pos : List V3}
    {ori : Option (List Quat)} {mol : Option Dynamics.Mol} {k : Option ℝ} {d : Dyn} {r : Relx}
    (hd : Dyn.new t box pos ori mol k = .ok d) (hr : Relx.new calcWave t box pos ori mol k = .ok r) :
    ∃ b b', createFreudBox box (mol.all (fun m => decide (m.dimensions = 2))) = .ok b ∧
      createFreudBox box (mol.any (fun m => decide (m.dimensions = 2))) = .ok b' ∧
      Tracked.new b pos ori = .ok d.motion ∧ Tracked.new b' pos ori = .ok r.motion := by
  obtain ⟨b, h1, h2⟩ := dyn_new_motion hd
  obtain ⟨b', h3, h4⟩ := relx_new_motion hr
  exact ⟨b, b', h1, h3, h2, h4⟩

/-- The tracker keeps the box. -/
theorem tracked_new_eq {b : Box} {pos : List V3} {ori : Option (List Quat)} {m : Tracked}
    (h : Tracked.new b pos ori = .ok m) : m = ⟨b, pos.map (fun _ => 0), pos.map (fun _ => 0), pos, ori⟩ := by
  unfold Tracked.new at h
  cases ori with
  | none => cases h; rfl
  | some o =>
    simp only at h
    split at h
    · cases h
    · cases h; rfl

/-- **C105, the part that holds.**  Missing for the full statement: objects without a molecule, see
`C105_twins_refuted`.  With a molecule they count the same motion, also after frames that raise. -/
theorem C105_twins_partial (calcWave : Box → List V3 → Except PyErr ℝ) (t : ℤ) (box : List ℝ) (pos : List V3)
    (ori : Option (List Quat)) (mol : Dynamics.Mol) (k : Option ℝ) (d : Dyn) (r : Relx)
    (hd : Dyn.new t box pos ori (some mol) k = .ok d)
    (hr : Relx.new calcWave t box pos ori (some mol) k = .ok r) (l : List Given) :
    SameMotion (dynAfter d l) (relxAfter r l) := by
  obtain ⟨b, b', h1, h2, h3, h4⟩ := new_motion hd hr
  have hb : b = b' := by
    have h2' : createFreudBox box ((some mol).all (fun m => decide (m.dimensions = 2))) = .ok b' := h2
    rw [h1] at h2'
    exact Except.ok.inj h2'
  subst hb
  rw [h3] at h4
  have hm : d.motion = r.motion := Except.ok.inj h4
  unfold SameMotion
  rw [dynAfter_motion, relxAfter_motion, hm]
  exact ⟨rfl, rfl⟩

/-! ## Without a molecule -/

theorem bcast_mem {α β γ : Type} {f : α → β → γ} {a : List α} {b : List β} {r : List γ}
    (h : bcast f a b = .ok r) {x : γ} (hx : x ∈ r) : ∃ p ∈ a, ∃ q ∈ b, x = f p q := by
  unfold bcast at h
  split at h
  · cases h
    obtain ⟨i, hi, rfl⟩ := List.mem_iff_getElem.1 hx
    rw [List.length_zipWith] at hi
    rw [List.getElem_zipWith]
    exact ⟨_, List.getElem_mem _, _, List.getElem_mem _, rfl⟩
  · split at h
    · cases h
      obtain ⟨q, hq, rfl⟩ := List.mem_map.1 hx
      exact ⟨_, by simp, q, hq, rfl⟩
    · cases h
      obtain ⟨p, hp, rfl⟩ := List.mem_map.1 hx
      exact ⟨p, hp, _, by simp, rfl⟩
    · cases h

/-- Vectors in the plane are wrapped alike in the two boxes made of the same array. -/
theorem wrap_planar {box : List ℝ} {b b' : Box} (h : createFreudBox box true = .ok b)
    (h' : createFreudBox box false = .ok b') (v : V3) (hv : v.2.2 = 0) : b.wrap v = b'.wrap v := by
  rcases box with _ | ⟨Lx, _ | ⟨Ly, _ | ⟨Lz, rest⟩⟩⟩
  · cases h
  · cases h
  · cases h
  · simp only [createFreudBox, if_true, Bool.false_eq_true, if_false, Except.ok.injEq] at h h'
    subst h h'
    have h0 : wrap1 0 = 0 := by
      unfold wrap1
      norm_num
    simp [Box.wrap, Box.frac, Box.coord, hv, h0]

/-- The positions are all at the height `z`. -/
def AtHeight (z : ℝ) (l : List V3) : Prop := ∀ v ∈ l, v.2.2 = z

theorem transAdd_planar {b b' : Box} {z : ℝ} (hw : ∀ v : V3, v.2.2 = 0 → b.wrap v = b'.wrap v)
    (dT dR : List V3) (p : List V3) (o : Option (List Quat)) (pos : List V3) (hp : AtHeight z p)
    (hpos : AtHeight z pos) :
    transAdd ⟨b, dT, dR, p, o⟩ pos = transAdd ⟨b', dT, dR, p, o⟩ pos := by
  unfold transAdd
  simp only
  cases h : bcast (fun p q : V3 => p - q) p pos with
  | error e => rfl
  | ok r =>
    simp only
    have : r.map b.wrap = r.map b'.wrap := by
      apply List.map_congr_left
      intro v hv
      obtain ⟨x, hx, y, hy, rfl⟩ := bcast_mem h hv
      apply hw
      simp only [Prod.snd_sub, hp x hx, hpos y hy, sub_self]
    rw [this]

theorem follow_planar {b b' : Box} {z : ℝ} (hw : ∀ v : V3, v.2.2 = 0 → b.wrap v = b'.wrap v)
    (l : List Given) : ∀ (dT dR p : List V3) (o : Option (List Quat)), AtHeight z p →
    (∀ f ∈ l, AtHeight z f.2.1) →
    (l.foldl (fun m f => (m.add f.2.1 f.2.2).1) (⟨b, dT, dR, p, o⟩ : Tracked)).deltaT =
      (l.foldl (fun m f => (m.add f.2.1 f.2.2).1) (⟨b', dT, dR, p, o⟩ : Tracked)).deltaT ∧
    (l.foldl (fun m f => (m.add f.2.1 f.2.2).1) (⟨b, dT, dR, p, o⟩ : Tracked)).deltaR =
      (l.foldl (fun m f => (m.add f.2.1 f.2.2).1) (⟨b', dT, dR, p, o⟩ : Tracked)).deltaR := by
  induction l with
  | nil => intro dT dR p o _ _; exact ⟨rfl, rfl⟩
  | cons f l ih =>
    intro dT dR p o hp hl
    have hf := hl f (by simp)
    have hl' : ∀ f ∈ l, AtHeight z f.2.1 := fun g hg => hl g (by simp [hg])
    have e1 := transAdd_planar hw dT dR p o f.2.1 hp hf
    have e2 : rotAdd ⟨b, dT, dR, p, o⟩ f.2.2 = rotAdd ⟨b', dT, dR, p, o⟩ f.2.2 := rfl
    simp only [List.foldl_cons, Tracked.add, e1, e2]
    cases h1 : transAdd ⟨b', dT, dR, p, o⟩ f.2.1 with
    | error e => exact ih dT dR p o hp hl'
    | ok dT' =>
      simp only
      cases h2 : rotAdd ⟨b', dT, dR, p, o⟩ f.2.2 with
      | error e => exact ih dT' dR p o hp hl'
      | ok dR' => exact ih dT' dR' f.2.1 f.2.2 hf hl'

/-- **C105, without a molecule.**  `Dynamics` then uses a two dimensional cell and `Relaxations` a three
dimensional one; as long as all positions are at one height they still count the same motion. -/
theorem C105_planar (calcWave : Box → List V3 → Except PyErr ℝ) (t : ℤ) (box : List ℝ) (pos : List V3)
    (ori : Option (List Quat)) (k : Option ℝ) (d : Dyn) (r : Relx) (hd : Dyn.new t box pos ori none k = .ok d)
    (hr : Relx.new calcWave t box pos ori none k = .ok r) (z : ℝ) (hpos : AtHeight z pos) (l : List Given)
    (hl : ∀ f ∈ l, AtHeight z f.2.1) : SameMotion (dynAfter d l) (relxAfter r l) := by
  obtain ⟨b, b', h1, h2, h3, h4⟩ := new_motion hd hr
  have hw := wrap_planar h1 h2
  have e3 := tracked_new_eq h3
  have e4 := tracked_new_eq h4
  unfold SameMotion
  rw [dynAfter_motion, relxAfter_motion, e3, e4]
  exact follow_planar hw l _ _ _ _ hpos hl

/-- Objects made from one molecule, in a cube of side 4 and with the wave number 1. -/
theorem twins_exist (calcWave : Box → List V3 → Except PyErr ℝ) (mol : Option Dynamics.Mol) :
    ∃ d r, Dyn.new 0 [4, 4, 4] [(0, 0, 0)] none mol (some 1) = .ok d ∧
      Relx.new calcWave 0 [4, 4, 4] [(0, 0, 0)] none mol (some 1) = .ok r := by
  have h1 : ∃ d, Dyn.new 0 [4, 4, 4] [(0, 0, 0)] none mol (some 1) = .ok d := by
    unfold Dyn.new
    rw [if_neg (by simp)]
    exact ⟨_, rfl⟩
  have h2 : ∃ r, Relx.new calcWave 0 [4, 4, 4] [(0, 0, 0)] none mol (some 1) = .ok r := by
    unfold Relx.new
    simp only [createFreudBox, Tracked.new, waveOf, if_neg (one_ne_zero (α := ℝ))]
    have hn := (default_ok 1 one_pos).1
    have e : [((0 : ℝ), (0 : ℝ), (0 : ℝ))].length = 1 := rfl
    rw [e]
    generalize Relax.setMolRelax 1 [] (Relax.defaults (Real.pi / (2 * 1)) Real.pi) = q at hn
    obtain ⟨x, e⟩ := q
    simp only at hn
    subst hn
    exact ⟨_, rfl⟩
  obtain ⟨d, hd⟩ := h1
  obtain ⟨r, hr⟩ := h2
  exact ⟨d, r, hd, hr⟩

/-- The hypotheses of `C105_twins_partial` and `C105_planar` hold for such objects. -/
example : (∃ d r, Dyn.new 0 [4, 4, 4] [(0, 0, 0)] none (some ⟨2, []⟩) (some 1) = .ok d ∧
      Relx.new (fun _ _ => .ok 1) 0 [4, 4, 4] [(0, 0, 0)] none (some ⟨2, []⟩) (some 1) = .ok r) ∧
    (∃ d r, Dyn.new 0 [4, 4, 4] [(0, 0, 0)] none none (some 1) = .ok d ∧
      Relx.new (fun _ _ => .ok 1) 0 [4, 4, 4] [(0, 0, 0)] none none (some 1) = .ok r) ∧
    AtHeight 0 [(0, 0, 0)] ∧ ∀ f ∈ [((1 : ℤ), [((3 : ℝ), (1 : ℝ), (0 : ℝ))], (none : Option (List Quat)))],
      AtHeight 0 f.2.1 :=
  ⟨twins_exist _ _, twins_exist _ _, by simp [AtHeight], by simp [AtHeight]⟩

/-- **C105 is false** without a molecule: a molecule that moves by 1 along z has moved for `Relaxations`, but
not for `Dynamics`. -/
theorem C105_twins_refuted : ¬ Twins := by
  intro h
  obtain ⟨d, r, hd, hr⟩ := twins_exist (fun _ _ => .ok 1) none
  have hs := h _ _ _ _ _ _ _ d r hd hr [(1, [(0, 0, 1)], none)]
  obtain ⟨b, b', h1, h2, h3, h4⟩ := new_motion hd hr
  simp only [createFreudBox, Option.all_none, if_true, Except.ok.injEq] at h1
  simp only [createFreudBox, Option.any_none, Bool.false_eq_true, if_false, Except.ok.injEq] at h2
  subst h1 h2
  simp only [Tracked.new, Except.ok.injEq, List.map_cons, List.map_nil] at h3 h4
  obtain ⟨hs, -⟩ := hs
  rw [dynAfter_motion, relxAfter_motion, ← h3, ← h4] at hs
  have w : wrap1 (-(1 / 4)) = -(1 / 4) := by
    unfold wrap1
    norm_num
  have w0 : wrap1 0 = 0 := by
    unfold wrap1
    norm_num
  simp [Tracked.add, transAdd, rotAdd, bcast, inplace, Box.wrap, Box.frac, Box.coord, w0] at hs
  norm_num at w
  norm_num [w] at hs

/-- The third cell vector is along z: the array has no tilts, or those of z are zero. -/
def Upright (box : List ℝ) : Prop := ∀ Lx Ly Lz xy xz yz, box = [Lx, Ly, Lz, xy, xz, yz] → xz = 0 ∧ yz = 0

/-- A vector without its height. -/
def flat (v : V3) : V3 := (v.1, v.2.1, 0)

theorem wrap_flat {box : List ℝ} {b b' : Box} (hu : Upright box) (h : createFreudBox box true = .ok b)
    (h' : createFreudBox box false = .ok b') (v : V3) : b.wrap v = flat (b'.wrap v) := by
  rcases box with _ | ⟨Lx, _ | ⟨Ly, _ | ⟨Lz, rest⟩⟩⟩
  · cases h
  · cases h
  · cases h
  · simp only [createFreudBox, if_true, Bool.false_eq_true, if_false, Except.ok.injEq] at h h'
    subst h h'
    rcases rest with _ | ⟨xy, _ | ⟨xz, _ | ⟨yz, _ | ⟨w, rest⟩⟩⟩⟩
    all_goals try simp [Box.wrap, Box.frac, Box.coord, flat]
    obtain ⟨rfl, rfl⟩ := hu Lx Ly Lz xy xz yz rfl
    simp

theorem bcast_map {α β γ α' β' γ' : Type} {f : α → β → γ} {f' : α' → β' → γ'} (ga : α → α') (gb : β → β')
    (gc : γ → γ') (h : ∀ x y, gc (f x y) = f' (ga x) (gb y)) (a : List α) (b : List β) :
    bcast f' (a.map ga) (b.map gb) = (bcast f a b).map (List.map gc) := by
  unfold bcast
  simp only [List.length_map]
  split
  · simp [Except.map, List.zipWith_map, List.map_zipWith, h]
  · rcases a with _ | ⟨x, _ | ⟨x', a⟩⟩ <;> rcases b with _ | ⟨y, _ | ⟨y', b⟩⟩ <;>
      simp_all [Except.map, Function.comp_def]

theorem inplace_map {α β α' β' : Type} {f : α → β → α} {f' : α' → β' → α'} (ga : α → α') (gb : β → β')
    (h : ∀ x y, ga (f x y) = f' (ga x) (gb y)) (a : List α) (b : List β) :
    inplace f' (a.map ga) (b.map gb) = (inplace f a b).map (List.map ga) := by
  unfold inplace
  rw [bcast_map ga gb ga h]
  cases bcast f a b with
  | error e => rfl
  | ok r =>
    simp only [Except.map, List.length_map]
    split <;> rfl

theorem map_self_iff {α : Type} (g : α → α) (l : List α) : l.map g = l ↔ ∀ x ∈ l, g x = x := by
  induction l with
  | nil => simp
  | cons x l ih => simp [ih]

theorem flat_sub (v w : V3) : flat (v - w) = flat v - flat w := by simp [flat]

theorem transAdd_flat {b b' : Box} (hw : ∀ v : V3, b.wrap v = flat (b'.wrap v)) (dT dR p : List V3)
    (o : Option (List Quat)) (pos : List V3) :
    transAdd ⟨b, dT.map flat, dR, p, o⟩ pos = (transAdd ⟨b', dT, dR, p, o⟩ pos).map (List.map flat) := by
  unfold transAdd
  simp only
  cases h : bcast (fun p q : V3 => p - q) p pos with
  | error e => rfl
  | ok r =>
    simp only
    rw [show r.map b.wrap = (r.map b'.wrap).map flat by
      rw [List.map_map]; exact List.map_congr_left (fun v _ => hw v)]
    exact inplace_map flat flat (fun x y => flat_sub x y) _ _

theorem follow_flat {b b' : Box} (hw : ∀ v : V3, b.wrap v = flat (b'.wrap v)) (l : List Given) :
    ∀ (dT dR p : List V3) (o : Option (List Quat)),
    (l.foldl (fun m f => (m.add f.2.1 f.2.2).1) (⟨b, dT.map flat, dR, p, o⟩ : Tracked)).deltaT =
      (l.foldl (fun m f => (m.add f.2.1 f.2.2).1) (⟨b', dT, dR, p, o⟩ : Tracked)).deltaT.map flat ∧
    (l.foldl (fun m f => (m.add f.2.1 f.2.2).1) (⟨b, dT.map flat, dR, p, o⟩ : Tracked)).deltaR =
      (l.foldl (fun m f => (m.add f.2.1 f.2.2).1) (⟨b', dT, dR, p, o⟩ : Tracked)).deltaR := by
  induction l with
  | nil => intro dT dR p o; exact ⟨rfl, rfl⟩
  | cons f l ih =>
    intro dT dR p o
    have e1 := transAdd_flat hw dT dR p o f.2.1
    have e2 : rotAdd ⟨b, dT.map flat, dR, p, o⟩ f.2.2 = rotAdd ⟨b', dT, dR, p, o⟩ f.2.2 := rfl
    simp only [List.foldl_cons, Tracked.add, e1, e2]
    cases h1 : transAdd ⟨b', dT, dR, p, o⟩ f.2.1 with
    | error e => exact ih dT dR p o
    | ok dT' =>
      simp only [Except.map]
      cases h2 : rotAdd ⟨b', dT, dR, p, o⟩ f.2.2 with
      | error e => exact ih dT' dR p o
      | ok dR' => exact ih dT' dR' f.2.1 f.2.2

/-- **C105, without a molecule, exactly.**  In a cell whose third vector is along z the displacements of
`Dynamics` are those of `Relaxations` without their heights, and the rotations are the same, whatever the
frames.  So they agree iff no displacement of `Relaxations` has a height. -/
theorem C105_exactly (calcWave : Box → List V3 → Except PyErr ℝ) (t : ℤ) (box : List ℝ) (pos : List V3)
    (ori : Option (List Quat)) (k : Option ℝ) (d : Dyn) (r : Relx) (hd : Dyn.new t box pos ori none k = .ok d)
    (hr : Relx.new calcWave t box pos ori none k = .ok r) (hu : Upright box) (l : List Given) :
    (dynAfter d l).motion.deltaT = (relxAfter r l).motion.deltaT.map (fun v => (v.1, v.2.1, 0)) ∧
    (dynAfter d l).motion.deltaR = (relxAfter r l).motion.deltaR ∧
    (SameMotion (dynAfter d l) (relxAfter r l) ↔ ∀ v ∈ (relxAfter r l).motion.deltaT, v.2.2 = 0) := by
  obtain ⟨b, b', h1, h2, h3, h4⟩ := new_motion hd hr
  have hw := wrap_flat hu h1 h2
  have e3 := tracked_new_eq h3
  have e4 := tracked_new_eq h4
  have hz : pos.map (fun _ => (0 : V3)) = (pos.map (fun _ => (0 : V3))).map flat := by
    rw [List.map_map]; rfl
  have key := follow_flat hw l (pos.map (fun _ => 0)) (pos.map (fun _ => 0)) pos ori
  rw [← hz, ← e3, ← e4, ← dynAfter_motion, ← relxAfter_motion] at key
  refine ⟨key.1, key.2, ?_⟩
  unfold SameMotion
  rw [key.1, and_iff_left key.2]
  constructor
  · intro h v hv
    have := (map_self_iff _ _).1 h v hv
    rw [← this]
    rfl
  · intro h
    rw [map_self_iff]
    intro v hv
    exact Prod.ext rfl (Prod.ext rfl (h v hv).symm)

/-- The hypotheses hold for an orthorhombic cell and for one tilted in the plane. -/
example : Upright [4, 4, 4] ∧ Upright [4, 4, 4, 1 / 2, 0, 0] ∧ ¬ Upright [4, 4, 4, 0, 1 / 2, 0] ∧
    ∃ d r, Dyn.new 0 [4, 4, 4] [(0, 0, 0)] none none (some 1) = .ok d ∧
      Relx.new (fun _ _ => .ok 1) 0 [4, 4, 4] [(0, 0, 0)] none none (some 1) = .ok r :=
  ⟨by simp [Upright], fun _ _ _ _ _ _ h => by simp at h; exact ⟨h.2.2.2.2.1.symm, h.2.2.2.2.2.symm⟩,
    by simp [Upright], twins_exist _ _⟩

/-- `Relaxations.__init__`, relaxations.py:41-58, with its argument `is2D`, which lines 52-55 overwrite. -/
noncomputable def Relx.newIs2D (calcWave : Box → List V3 → Except PyErr ℝ) (timestep : ℤ) (box : List ℝ)
    (position : List V3) (orientation : Option (List Quat)) (molecule : Option Dynamics.Mol)
    (_is2D : Option Bool) (waveNumber : Option ℝ) : Except PyErr Relx :=
  Relx.new calcWave timestep box position orientation molecule waveNumber

/-- **C105**: asking for two dimensions with `is2D=True` does not help, the cell is three dimensional whenever
there is no molecule. -/
theorem C105_is2D_ignored (calcWave : Box → List V3 → Except PyErr ℝ) (t : ℤ) (box : List ℝ) (pos : List V3)
    (ori : Option (List Quat)) (is2D : Option Bool) (k : Option ℝ) (r : Relx)
    (h : Relx.newIs2D calcWave t box pos ori none is2D k = .ok r) : r.motion.box.is2D = false := by
  obtain ⟨b, h1, h2⟩ := relx_new_motion (mol := none) h
  rw [tracked_new_eq h2]
  rcases box with _ | ⟨Lx, _ | ⟨Ly, _ | ⟨Lz, rest⟩⟩⟩
  · cases h1
  · cases h1
  · cases h1
  · simp only [createFreudBox, Option.any_none, Bool.false_eq_true, if_false, Except.ok.injEq] at h1
    rw [← h1]

example : ∃ r, Relx.newIs2D (fun _ _ => .ok 1) 0 [4, 4, 4] [(0, 0, 0)] none none (some true) (some 1) = .ok r := by
  obtain ⟨_, r, -, h⟩ := twins_exist (fun _ _ => .ok 1) none
  exact ⟨r, h⟩

/-- **C105**: when `Dynamics` cannot be made: RuntimeError without positions, or with an empty array of
orientations, ValueError for a cell of less than three numbers, and never otherwise. -/
theorem C105_dynamics_made (t : ℤ) (box : List ℝ) (pos : List V3) (ori : Option (List Quat))
    (mol : Option Dynamics.Mol) (k : Option ℝ) (res : ℕ) (e : PyErr) :
    Dyn.new t box pos ori mol k res = .error e ↔
      (pos = [] ∧ e = .runtimeError) ∨ (pos ≠ [] ∧ box.length < 3 ∧ e = .valueError) ∨
      (pos ≠ [] ∧ 3 ≤ box.length ∧ ori = some [] ∧ e = .runtimeError) := by
  unfold Dyn.new
  rcases pos with _ | ⟨p, pos⟩
  · simp [eq_comm]
  rw [if_neg (by simp)]
  rcases box with _ | ⟨Lx, _ | ⟨Ly, _ | ⟨Lz, rest⟩⟩⟩
  · simp [createFreudBox, eq_comm]
  · simp [createFreudBox, eq_comm]
  · simp [createFreudBox, eq_comm]
  · rcases ori with _ | _ | ⟨o, os⟩
    · simp [createFreudBox, Tracked.new]
    · simp only [createFreudBox, Tracked.new, List.length_nil, if_true, Except.error.injEq, reduceCtorEq,
        false_and, ne_eq, not_false_eq_true, true_and, List.length_cons, false_or]
      constructor
      · rintro rfl
        exact Or.inr ⟨by omega, rfl⟩
      · rintro (⟨h, -⟩ | ⟨-, h⟩)
        · omega
        · exact h.symm
    · simp [createFreudBox, Tracked.new]

example : Dyn.new 0 [4, 4, 4] [] none none none = .error .runtimeError ∧
    Dyn.new 0 [4, 4] [(0, 0, 0)] none none none = .error .valueError := by
  constructor <;> rw [C105_dynamics_made] <;> simp

/-- **C105**: the wave number 0 is refused by `Relaxations`, with a ZeroDivisionError, whatever else is given
(that can be given). -/
theorem C105_zero_wave_number (calcWave : Box → List V3 → Except PyErr ℝ) (t : ℤ) (Lx Ly Lz : ℝ) (rest : List ℝ)
    (pos : List V3) (ori : Option (List Quat)) (hori : ori ≠ some []) (mol : Option Dynamics.Mol) :
    Relx.new calcWave t (Lx :: Ly :: Lz :: rest) pos ori mol (some 0) = .error .zeroDivisionError := by
  unfold Relx.new
  simp only [createFreudBox, waveOf, if_true]
  cases ori with
  | none => rfl
  | some o =>
    have : o.length ≠ 0 := fun h => hori (by rw [List.length_eq_zero_iff.1 h])
    simp only [Tracked.new, if_neg this]

example : (none : Option (List Quat)) ≠ some [] := by simp

/-! ## The default molecule and the table of relaxations -/

/-- **C91**: the molecule of `process_file` is flat, and has two particles at the distance 1 from the central one
with an angle of 120 degrees between them; its centre is the origin. -/
theorem C91_default_molecule : trimerMol.dimensions = 2 ∧ ∃ p0 p1 p2, trimerMol.positions = [p0, p1, p2] ∧
    p1 - p0 = (-(Real.sqrt 3 / 2), 1 / 2, 0) ∧ p2 - p0 = (Real.sqrt 3 / 2, 1 / 2, 0) ∧ p0 + p1 + p2 = 0 := by
  obtain ⟨-, m, p0, p1, p2, x, y, hm, hp, h1, h2, hx, hy⟩ := Molecule.C65_placement
    (.float (637556 / 1000000)) (.float 1) (.int 120) 1 120 rfl rfl (by simp [Molecule.Arg.toReal])
  obtain ⟨m', q0, q1, q2, hm', hp', hd, -, -, -, -, hc⟩ := Molecule.C65_trimer
    (.float (637556 / 1000000)) (.float 1) (.int 120) 1 120 rfl rfl (by simp [Molecule.Arg.toReal])
  rw [hm] at hm'
  cases hm'
  have hs : Real.sin (120 * Real.pi / 360) = Real.sqrt 3 / 2 := by
    rw [← Real.sin_pi_div_three]; congr 1; ring
  have hs' : Real.cos (120 * Real.pi / 360) = 1 / 2 := by
    rw [← Real.cos_pi_div_three]; congr 1; ring
  rw [hs, one_mul] at hx
  rw [hs', one_mul] at hy
  have ht : trimerMol = ⟨2, [p0, p1, p2]⟩ := by
    unfold trimerMol
    rw [hm]
    simp only [hd, hp]
    rfl
  rw [ht]
  refine ⟨rfl, p0, p1, p2, rfl, by rw [h1, hx, hy], by rw [h2, hx, hy], ?_⟩
  rw [hp] at hc
  simp only [Molecule.centre, Prod.mk_eq_zero, List.map_cons, List.map_nil, List.sum_cons, List.sum_nil,
    List.length_cons, List.length_nil] at hc
  norm_num at hc
  obtain ⟨c1, c2, c3⟩ := hc
  refine Prod.ext ?_ (Prod.ext ?_ ?_)
  · simp only [Prod.fst_add, Prod.fst_zero]; linarith
  · simp only [Prod.fst_add, Prod.snd_add, Prod.fst_zero, Prod.snd_zero]; linarith
  · simp only [Prod.snd_add, Prod.snd_zero]; linarith

/-- **C93**: the table has a row for each molecule if any relaxation is defined, and no row otherwise. -/
theorem C93_rows (r : Relx) : r.summary.length = if r.relax = [] then 0 else r.num := by
  unfold Relx.summary
  cases h : r.relax with
  | nil => rfl
  | cons a l => simp

end Verif.Pipeline
