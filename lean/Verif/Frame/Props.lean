import Verif.Frame.Lemmas
import Verif.Motion.Lemmas
/-!
# Properties of frames: C59, C60, C61
-/

namespace Verif.Frame

open Verif.Motion (V3 Quat Box createFreudBox)

/-! ### C59: the number of molecules of a snapshot -/

/-- A snapshot of `n` particles with the given bodies, at the origin of a unit box. -/
def sampleSnap (n : Nat) (body : Option (List Int)) : Snapshot where
  N := n
  body := body
  position := List.replicate n (0, 0, 0)
  orientation := List.replicate n 1
  image := some (List.replicate n (0, 0, 0))
  step := 7
  box := .gsd [1, 1, 1, 0, 0, 0] 2

/-- **C59 (partial).** The full statement is `IsNumMols` for every snapshot.  It is proved for body
numbers from -1 up (-1, or 2³²-1 in an unsigned array, is "no body"); for other negative numbers
see `C59_floppy_refuted`.  The sum may be wide or unsigned 32 bit. -/
theorem C59_num_mols_partial (a : Arith) (ha : a ≠ .int32) (s : Snapshot)
    (hb : ∀ l, s.body = some l → ∀ b ∈ l, (if a = .uint32 then 0 else -1) ≤ b ∧ b < 4294967296)
    (hN : s.N < 4294967296) (n : Int) (h : getNumBodies a s = .ok n) : IsNumMols s.body s.N n := by
  have hn : n = clampNumMols (rawNumMols a s) s.N := by
    unfold getNumBodies at h
    simp only at h
    split at h
    · cases h
    split at h
    · cases h
    · cases h; rfl
  subst hn
  cases hbody : s.body with
  | none =>
    right
    refine ⟨?_, ?_⟩
    · rintro ⟨m, l, hl, _⟩
      cases hl
    · simp [rawNumMols, hbody, clampNumMols]
  | some l =>
    cases hm : pyMax l with
    | none =>
      have := pyMax_none l hm
      subst this
      right
      refine ⟨?_, ?_⟩
      · rintro ⟨m, l, hl, hml, _⟩
        cases hl
        simp at hml
      · simp [rawNumMols, hbody, hm, clampNumMols]
    | some m =>
      have hraw : rawNumMols a s = a.succ m := by simp [rawNumMols, hbody, hm]
      obtain ⟨hb1, hb2⟩ := hb l hbody m (pyMax_spec l m hm).1
      rw [hraw]
      have huse : (∃ k, UsableMax (some l) s.N k) ↔ 1 ≤ m + 1 ∧ m + 1 ≤ s.N :=
        ⟨fun ⟨k, hk⟩ => ((usableMax_iff l m hm s.N k).1 hk).2,
          fun h => ⟨m, (usableMax_iff l m hm s.N m).2 ⟨rfl, h⟩⟩⟩
      by_cases hu : 1 ≤ m + 1 ∧ m + 1 ≤ s.N
      · left
        refine ⟨m, (usableMax_iff l m hm s.N m).2 ⟨rfl, hu⟩, ?_⟩
        have hs : a.succ m = m + 1 := by
          cases a
          · rfl
          · simp only [Arith.succ]; omega
          · exact absurd rfl ha
        rw [hs, clampNumMols, if_neg (by omega), if_neg (by omega)]
      · right
        rw [huse]
        refine ⟨hu, ?_⟩
        unfold clampNumMols
        cases a
        · simp only [Arith.succ]
          simp at hb1
          split_ifs <;> omega
        · simp only [Arith.succ]
          simp at hb1
          split_ifs <;> omega
        · exact absurd rfl ha

/-- Four particles in two bodies, and four without body, signed and unsigned. -/
example : getNumBodies .wide (sampleSnap 4 (some [0, 1, 0, 1])) = .ok 2 ∧
    getNumBodies .wide (sampleSnap 4 (some [-1, -1, -1, -1])) = .ok 4 ∧
    getNumBodies .wide (sampleSnap 4 (some [4294967295, 1, 1, 1])) = .ok 4 ∧
    getNumBodies .uint32 (sampleSnap 4 (some [4294967295, 1, 1, 1])) = .ok 4 ∧
    getNumBodies .wide (sampleSnap 4 none) = .ok 4 := by decide

/-- **C59.** The number of molecules never exceeds the number of particles or of positions: when the
count does exceed the positions, ValueError is raised, and never anything else. -/
theorem C59_bounded (a : Arith) (s : Snapshot) :
    (∃ n, getNumBodies a s = .ok n ∧ n ≤ s.N ∧ n ≤ s.position.length) ∨
    (getNumBodies a s = .error .valueError ∧ (s.position.length : Int) < s.N) := by
  have hc : clampNumMols (rawNumMols a s) s.N ≤ s.N := by
    unfold clampNumMols
    split
    · exact le_refl _
    · split
      · exact le_refl _
      · omega
  unfold getNumBodies
  simp only
  rw [if_neg (by omega)]
  split
  · next h => right; exact ⟨rfl, by omega⟩
  · next h => left; exact ⟨_, rfl, hc, by omega⟩

example : getNumBodies .wide { sampleSnap 4 none with position := [(0, 0, 0)] } =
    .error .valueError := by
  simp [getNumBodies, sampleSnap, clampNumMols, rawNumMols]

/-- **C59 (refuted for floppy bodies).** hoomd numbers floppy bodies -2, -3, …; with only those the
"number of molecules" is negative, and the last particle is silently dropped from `position`. -/
theorem C59_floppy_refuted :
    ¬ (∀ (s : Snapshot) (n : Int), Complete s → getNumBodies .wide s = .ok n →
      IsNumMols s.body s.N n) ∧
    getNumBodies .wide (sampleSnap 3 (some [-2, -2, -2])) = .ok (-1) ∧
    (hoomdFrame .wide (sampleSnap 3 (some [-2, -2, -2]))).map (fun v => (v.len, v.position.length)) =
      .ok (-1, 2) := by
  have hn : getNumBodies .wide (sampleSnap 3 (some [-2, -2, -2])) = .ok (-1) := by decide
  refine ⟨?_, hn, ?_⟩
  · intro h
    have := h (sampleSnap 3 (some [-2, -2, -2])) (-1)
      ⟨by simp [sampleSnap], by simp [sampleSnap], by
        intro im him
        simp only [sampleSnap, Option.some.injEq] at him
        subst him
        simp [sampleSnap]⟩ hn
    rcases this with ⟨m, ⟨_, _, _, _, h3, _⟩, h5⟩ | ⟨_, h⟩
    · omega
    · simp [sampleSnap] at h
  · simp only [hoomdFrame, hn]
    rfl

/-- **C59, exactly.**  With a wide sum the count is right unless there are bodies and every one of them is
numbered -2 or less. -/
theorem C59_exactly (s : Snapshot) (hN : 0 ≤ s.N) (n : Int) (h : getNumBodies .wide s = .ok n) :
    IsNumMols s.body s.N n ↔ ¬ ∃ l, s.body = some l ∧ l ≠ [] ∧ ∀ b ∈ l, b ≤ -2 := by
  have hn : n = clampNumMols (rawNumMols .wide s) s.N := by
    unfold getNumBodies at h
    simp only at h
    split at h
    · cases h
    split at h
    · cases h
    · cases h; rfl
  subst hn
  cases hbody : s.body with
  | none =>
    refine iff_of_true (Or.inr ⟨?_, ?_⟩) ?_
    · rintro ⟨m, l, hl, _⟩
      cases hl
    · simp [rawNumMols, hbody, clampNumMols]
    · rintro ⟨l, hl, -⟩
      cases hl
  | some l =>
    cases hm : pyMax l with
    | none =>
      have := pyMax_none l hm
      subst this
      refine iff_of_true (Or.inr ⟨?_, ?_⟩) ?_
      · rintro ⟨m, l, hl, hml, _⟩
        cases hl
        simp at hml
      · simp [rawNumMols, hbody, hm, clampNumMols]
      · rintro ⟨l, hl, hne, -⟩
        cases hl
        exact hne rfl
    | some m =>
      have hraw : rawNumMols .wide s = m + 1 := by simp [rawNumMols, hbody, hm, Arith.succ]
      obtain ⟨hmem, hmax⟩ := pyMax_spec l m hm
      rw [hraw]
      have huse : (∃ k, UsableMax (some l) s.N k) ↔ 1 ≤ m + 1 ∧ m + 1 ≤ s.N :=
        ⟨fun ⟨k, hk⟩ => ((usableMax_iff l m hm s.N k).1 hk).2,
          fun h => ⟨m, (usableMax_iff l m hm s.N m).2 ⟨rfl, h⟩⟩⟩
      have hall : (∃ l', some l = some l' ∧ l' ≠ [] ∧ ∀ b ∈ l', b ≤ -2) ↔ m ≤ -2 := by
        constructor
        · rintro ⟨l', hl, -, hb⟩
          cases hl
          exact hb m hmem
        · intro h2
          exact ⟨l, rfl, List.ne_nil_of_mem hmem, fun b hb => le_trans (hmax b hb) h2⟩
      rw [hall]
      unfold IsNumMols
      rw [huse]
      unfold clampNumMols
      constructor
      · rintro (⟨k, hk, hk'⟩ | ⟨h1, h2⟩) h3
        · have := (usableMax_iff l m hm s.N k).1 hk
          omega
        · split_ifs at h2 <;> omega
      · intro h3
        by_cases hu : 1 ≤ m + 1 ∧ m + 1 ≤ s.N
        · left
          refine ⟨m, (usableMax_iff l m hm s.N m).2 ⟨rfl, hu⟩, ?_⟩
          rw [if_neg (by omega), if_neg (by omega)]
        · right
          refine ⟨hu, ?_⟩
          split_ifs <;> omega

/-- Floppy bodies next to a rigid one do no harm. -/
example : getNumBodies .wide (sampleSnap 3 (some [-2, 0, -3])) = .ok 1 := by decide

/-- **C59 (refuted for signed 32 bit sums).** Where the sum stays in the signed 32 bit type of the
array, the largest body number gives a negative count. -/
theorem C59_int32_refuted :
    getNumBodies .int32 (sampleSnap 2 (some [0, 2147483647])) = .ok (-2147483648) := by decide

/-! ### C60: one row per molecule -/

/-- **C60.** Position, its three columns and orientation have one row per molecule, and the columns
are the coordinates of the rows of `position`, for snapshots whose arrays have a row per particle. -/
theorem C60_hoomd_aligned (a : Arith) (s : Snapshot) (hs : Complete s) (v : View)
    (h : hoomdFrame a s = .ok v) (hlen : 0 ≤ v.len) : v.Aligned := by
  unfold hoomdFrame at h
  split at h
  · cases h
  next n hn =>
  cases h
  simp only at hlen
  rcases C59_bounded a s with ⟨n', hn', h1, h2⟩ | ⟨he, _⟩
  swap
  · rw [he] at hn; cases hn
  rw [hn] at hn'
  cases hn'
  have hp := length_sliceTo s.position n hlen h2
  have ho := length_sliceTo s.orientation n hlen (by rw [hs.orientation]; exact h1)
  refine ⟨hp, by simpa using hp, by simpa using hp, by simpa using hp, ho, ?_⟩
  intro i p hi
  simp only at hi
  simp [hi]

/-- **C60/C61.** The rows are those of the first molecules of the snapshot, and timestep, box and
dimensions are those of the snapshot. -/
theorem C60_hoomd_values (a : Arith) (s : Snapshot) (v : View) (h : hoomdFrame a s = .ok v)
    (hlen : 0 ≤ v.len) :
    (∀ i : Nat, (i : Int) < v.len → v.position[i]? = s.position[i]? ∧
      v.orientation[i]? = s.orientation[i]?) ∧
    v.timestep = s.step ∧
    (∀ Lx Ly Lz xy xz yz d, s.box = .hoomd Lx Ly Lz xy xz yz d →
      v.box = [Lx, Ly, Lz, xy, xz, yz] ∧ v.dimensions = d) ∧
    (∀ b d, s.box = .gsd b d → v.box = b ∧ v.dimensions = d) := by
  unfold hoomdFrame at h
  split at h
  · cases h
  next n hn =>
  cases h
  simp only at hlen
  refine ⟨?_, rfl, ?_, ?_⟩
  · intro i hi
    simp only at hi
    have : i < n.toNat := by omega
    simp [sliceTo, hlen, this]
  · rintro Lx Ly Lz xy xz yz d hb
    simp [hb, SnapBox.array, SnapBox.dim]
  · rintro b d hb
    simp [hb, SnapBox.array, SnapBox.dim]

/-- The number of molecules is not negative when the snapshot has a body number from -1 up. -/
theorem C60_len_nonneg (s : Snapshot) (hN : 0 ≤ s.N)
    (hb : ∀ l, s.body = some l → ∃ b ∈ l, -1 ≤ b) (v : View)
    (h : hoomdFrame .wide s = .ok v) : 0 ≤ v.len := by
  unfold hoomdFrame at h
  split at h
  · cases h
  next n hn =>
  cases h
  simp only
  unfold getNumBodies at hn
  simp only at hn
  split at hn
  · cases hn
  split at hn
  · cases hn
  cases hn
  unfold clampNumMols
  split
  · exact hN
  split
  · exact hN
  next h1 h2 =>
  unfold rawNumMols
  cases hbody : s.body with
  | none => exact hN
  | some l =>
    cases hm : pyMax l with
    | none => simpa [hm] using hN
    | some m =>
      simp only [hm, Arith.succ]
      obtain ⟨b, hbl, hb1⟩ := hb l hbody
      have := (pyMax_spec l m hm).2 b hbl
      omega

/-- Four particles in two rigid bodies. -/
example : Complete (sampleSnap 4 (some [0, 1, 0, 1])) ∧
    ∃ v, hoomdFrame .wide (sampleSnap 4 (some [0, 1, 0, 1])) = .ok v ∧ v.len = 2 ∧
      v.position.length = 2 := by
  refine ⟨⟨by simp [sampleSnap], by simp [sampleSnap], ?_⟩, ?_⟩
  · intro im him
    simp only [sampleSnap, Option.some.injEq] at him
    subst him
    simp [sampleSnap]
  · have hn : getNumBodies .wide (sampleSnap 4 (some [0, 1, 0, 1])) = .ok 2 := by decide
    exact ⟨_, by rw [hoomdFrame, hn], rfl, by simp [sliceTo, sampleSnap]⟩

/-- **C60 (refuted for `image`).** `image` is not cut to the molecules: it has a row per particle.
Motion code that adds images to positions then fails for rigid bodies. -/
theorem C60_image_refuted :
    ¬ (∀ (s : Snapshot) (v : View), Complete s → hoomdFrame .wide s = .ok v → 0 ≤ v.len →
      v.ImageAligned) := by
  intro h
  have hn : getNumBodies .wide (sampleSnap 4 (some [0, 1, 0, 1])) = .ok 2 := by decide
  have := h (sampleSnap 4 (some [0, 1, 0, 1])) _
    ⟨by simp [sampleSnap], by simp [sampleSnap], by
      intro im him
      simp only [sampleSnap, Option.some.injEq] at him
      subst him
      simp [sampleSnap]⟩ (by rw [hoomdFrame, hn]) (by simp)
  have := this (List.replicate 4 (0, 0, 0)) rfl
  simp at this

/-- **C60 (partial, `image`).** The images are aligned exactly when every particle is its own
molecule; that is the case for the whole statement `ImageAligned`. -/
theorem C60_image_partial (a : Arith) (s : Snapshot) (hs : Complete s) (v : View)
    (h : hoomdFrame a s = .ok v) (im : List (Int × Int × Int)) (him : s.image = some im) :
    v.image = some im ∧ (v.ImageAligned ↔ v.len = s.N) := by
  unfold hoomdFrame at h
  split at h
  · cases h
  next n hn =>
  cases h
  refine ⟨him, ?_⟩
  have hl := hs.image im him
  constructor
  · intro h
    have := h im him
    simp only at this ⊢
    omega
  · intro h im' him'
    simp only at h him' ⊢
    rw [him] at him'
    cases him'
    omega

/-- Four particles in two rigid bodies: there are images for all the particles. -/
example : ∃ v, hoomdFrame .wide (sampleSnap 4 (some [0, 1, 0, 1])) = .ok v ∧ v.Aligned ∧ ¬ v.ImageAligned ∧
    v.position[1]? = (sampleSnap 4 (some [0, 1, 0, 1])).position[1]? := by
  have hc : Complete (sampleSnap 4 (some [0, 1, 0, 1])) := by
    refine ⟨by simp [sampleSnap], by simp [sampleSnap], ?_⟩
    intro im him
    simp only [sampleSnap, Option.some.injEq] at him
    subst him
    simp [sampleSnap]
  have hn : getNumBodies .wide (sampleSnap 4 (some [0, 1, 0, 1])) = .ok 2 := by decide
  obtain ⟨v, hv, hl⟩ : ∃ v, hoomdFrame .wide (sampleSnap 4 (some [0, 1, 0, 1])) = .ok v ∧ v.len = 2 :=
    ⟨_, by rw [hoomdFrame, hn], rfl⟩
  refine ⟨v, hv, C60_hoomd_aligned _ _ hc v hv (by omega), ?_,
    ((C60_hoomd_values _ _ v hv (by omega)).1 1 (by omega)).1⟩
  rw [(C60_image_partial _ _ hc v hv _ rfl).2, hl]
  decide

/-- **C60.** A lammps frame with equally long columns x, y and z is aligned, holds those columns,
the identity orientation for every atom, and no images. -/
theorem C60_lammps_aligned (junk : ℝ) (f : Lammps.LFrame ℝ) (v : View)
    (h : lammpsFrame junk f = .ok v) :
    v.Aligned ∧ v.image = none ∧ (∀ q ∈ v.orientation, q = 1) ∧
    v.timestep = f.timestep ∧ v.dimensions = 2 := by
  obtain ⟨x, y, z, hx, hy, hz, h1, h2, rfl⟩ := (lammpsFrame_ok junk f v).1 h
  refine ⟨⟨?_, rfl, ?_, ?_, ?_, ?_⟩, rfl, ?_, rfl, rfl⟩
  · simp only [lammpsView, List.length_zip]; omega
  · simp only [lammpsView]; omega
  · simp only [lammpsView]; omega
  · simp [lammpsView]
  · intro i p hi
    simp only [lammpsView] at hi ⊢
    rw [List.getElem?_zip_eq_some] at hi
    obtain ⟨h3, h4⟩ := hi
    rw [List.getElem?_zip_eq_some] at h4
    exact ⟨h3, h4.1, h4.2⟩
  · intro q hq
    exact List.eq_of_mem_replicate hq

/-- **C60.** Every frame that the lammps reader delivers, from any file whatever, is viewed without
error as soon as it has columns x, y and z; otherwise the error is KeyError. -/
theorem C60_lammps_reader (junk : ℝ) (float : List Char → Option ℝ) (src : List Char)
    (f : Lammps.LFrame ℝ) (hf : f ∈ (Lammps.parseLammps float src).1) :
    ((∀ name ∈ ["x", "y", "z"], Dict.mem f.cols name.toList = true) →
      ∃ v, lammpsFrame junk f = .ok v) ∧
    ((∃ name ∈ ["x", "y", "z"], Dict.mem f.cols name.toList = false) →
      lammpsFrame junk f = .error .keyError) := by
  obtain ⟨⟨n, hn⟩, _⟩ := parseFuel_cols float _ src f hf
  have hcol : ∀ name : String, (Dict.mem f.cols name.toList = true →
      ∃ c, column junk f name = .ok c ∧ c.length = n) ∧
      (Dict.mem f.cols name.toList = false → column junk f name = .error .keyError) := by
    intro name
    unfold Dict.mem column
    cases hc : Dict.get? f.cols name.toList with
    | none => simp
    | some c => simpa using hn _ _ hc
  constructor
  · intro h
    obtain ⟨x, hx, lx⟩ := (hcol "x").1 (h _ (by simp))
    obtain ⟨y, hy, ly⟩ := (hcol "y").1 (h _ (by simp))
    obtain ⟨z, hz, lz⟩ := (hcol "z").1 (h _ (by simp))
    exact ⟨_, (lammpsFrame_ok junk f _).2
      ⟨x, y, z, hx, hy, hz, by omega, by omega, rfl⟩⟩
  · rintro ⟨name, hm, hfalse⟩
    unfold lammpsFrame
    rcases hx : Dict.mem f.cols "x".toList with _ | _
    · rw [(hcol "x").2 hx]
    obtain ⟨x, hx', _⟩ := (hcol "x").1 hx
    rw [hx']
    rcases hy : Dict.mem f.cols "y".toList with _ | _
    · rw [(hcol "y").2 hy]
    obtain ⟨y, hy', _⟩ := (hcol "y").1 hy
    rw [hy']
    rcases hz : Dict.mem f.cols "z".toList with _ | _
    · rw [(hcol "z").2 hz]
    simp only [List.mem_cons, List.not_mem_nil, or_false] at hm
    rcases hm with rfl | rfl | rfl
    · rw [hx] at hfalse; cases hfalse
    · rw [hy] at hfalse; cases hfalse
    · rw [hz] at hfalse; cases hfalse

/-- A frame of two atoms. -/
def sampleL : Lammps.LFrame ℝ where
  timestep := 5
  box := [2, 3, 4]
  cols := [("id".toList, [some 1, some 2]), ("x".toList, [some 3, some 4]),
    ("y".toList, [some 5, some 6]), ("z".toList, [some 7, some 8])]

example : (lammpsFrame 0 sampleL).map (fun v => (v.position, v.box, v.len)) =
    .ok ([(3, 5, 7), (4, 6, 8)], [2, 3, 4, 0, 0, 0], 2) := by
  rfl

/-! ### C61: box conversion -/

/-- **C61.** The box of a lammps frame has six entries: those of the file, then zeros. -/
theorem C61_lammps_box (b : List ℝ) :
    (lammpsBox b).length = 6 ∧
    ∀ i, i < 6 → (lammpsBox b)[i]? = some (if i < b.length then b.getD i 0 else 0) := by
  obtain ⟨h1, h2⟩ := boxLoop_spec b 0 (List.replicate 6 0) (by simp)
  refine ⟨h1, fun i hi => ?_⟩
  rw [lammpsBox, h2 i hi, if_neg (by omega), Nat.sub_zero]
  split
  · next h => rw [List.getD_eq_getElem?_getD, List.getElem?_eq_getElem h]; rfl
  · rw [List.getElem?_replicate_of_lt hi]

/-- **C61.** The box of a snapshot is its six numbers in the order Lx, Ly, Lz, xy, xz, yz. -/
theorem C61_hoomd_box (Lx Ly Lz xy xz yz : ℝ) (d : Int) :
    (SnapBox.hoomd Lx Ly Lz xy xz yz d).array = [Lx, Ly, Lz, xy, xz, yz] ∧
    (SnapBox.gsd [Lx, Ly, Lz, xy, xz, yz] d).array = [Lx, Ly, Lz, xy, xz, yz] := ⟨rfl, rfl⟩

/-- **C61.** The freud box of a frame with a six entry box keeps Lx, Ly and xy; Lz, xz and yz are
kept for three dimensional frames and are zero for two dimensional ones. -/
theorem C61_freud_box (v : View) (Lx Ly Lz xy xz yz : ℝ) (hb : v.box = [Lx, Ly, Lz, xy, xz, yz]) :
    ∃ b, freudBox v = .ok b ∧ b.Lx = Lx ∧ b.Ly = Ly ∧ b.xy = xy ∧
      (b.is2D = true ↔ v.dimensions = 2) ∧
      (v.dimensions ≠ 2 → b.Lz = Lz ∧ b.xz = xz ∧ b.yz = yz) ∧
      (v.dimensions = 2 → b.Lz = 0 ∧ b.xz = 0 ∧ b.yz = 0) := by
  unfold freudBox
  rw [hb]
  by_cases h : v.dimensions = 2
  · exact ⟨⟨Lx, Ly, 0, xy, 0, 0, true⟩, by simp [createFreudBox, h], rfl, rfl, rfl, by simp [h],
      by simp [h], by simp⟩
  · exact ⟨⟨Lx, Ly, Lz, xy, xz, yz, false⟩, by simp [createFreudBox, h], rfl, rfl, rfl, by simp [h],
      by simp, by simp [h]⟩

/-- The box of the frame of a sheared snapshot in two dimensions. -/
example : ∃ b, freudBox ⟨[], [], [], [], [], none, 0, (SnapBox.hoomd 8 9 1 (1 / 10) 0 0 2).array, 2, 0⟩ = .ok b ∧
    b.Lx = 8 ∧ b.Ly = 9 ∧ b.xy = 1 / 10 ∧ b.Lz = 0 := by
  obtain ⟨b, h1, h2, h3, h4, -, -, h5⟩ := C61_freud_box
    ⟨[], [], [], [], [], none, 0, (SnapBox.hoomd 8 9 1 (1 / 10) 0 0 2).array, 2, 0⟩ 8 9 1 (1 / 10) 0 0
    (C61_hoomd_box 8 9 1 (1 / 10) 0 0 2).1
  exact ⟨b, h1, h2, h3, h4, (h5 rfl).1⟩

/-- **C61.** A frame delivered by the lammps reader gives the orthogonal two dimensional box with
the two lengths of the file. -/
theorem C61_lammps_freud_box (junk : ℝ) (float : List Char → Option ℝ) (src : List Char)
    (f : Lammps.LFrame ℝ) (hf : f ∈ (Lammps.parseLammps float src).1) (v : View)
    (hv : lammpsFrame junk f = .ok v) :
    ∃ a b c, f.box = [a, b, c] ∧ v.box = [a, b, c, 0, 0, 0] ∧
      freudBox v = .ok ⟨a, b, 0, 0, 0, 0, true⟩ := by
  obtain ⟨_, h3⟩ := parseFuel_cols float _ src f hf
  obtain ⟨a, b, c, habc⟩ := List.length_eq_three.1 h3
  have hd := (C60_lammps_aligned junk f v hv).2.2.2.2
  have hbox : v.box = lammpsBox f.box := by
    obtain ⟨x, y, z, _, _, _, _, _, rfl⟩ := (lammpsFrame_ok junk f v).1 hv
    rfl
  have hb6 : v.box = [a, b, c, 0, 0, 0] := by
    rw [hbox, habc]
    rfl
  refine ⟨a, b, c, habc, hb6, ?_⟩
  unfold freudBox
  rw [hb6, hd]
  simp [createFreudBox]

example : freudBox ((lammpsFrame 0 sampleL).toOption.getD
    ⟨[], [], [], [], [], none, 0, [], 0, 0⟩) = .ok ⟨2, 3, 0, 0, 0, 0, true⟩ := by
  simp only [freudBox, lammpsFrame]
  rfl

/-- **C61.** A box of fewer than three entries is refused; with three, four or five entries the
tilts are zero (so an array of lengths alone gives an orthogonal box). -/
theorem C61_short_box (b : List ℝ) (is2D : Bool) :
    (b.length < 3 → createFreudBox b is2D = .error .valueError) ∧
    (3 ≤ b.length → b.length ≠ 6 → ∃ B, createFreudBox b is2D = .ok B ∧
      B.xy = 0 ∧ B.xz = 0 ∧ B.yz = 0 ∧ some B.Lx = b[0]? ∧ some B.Ly = b[1]?) := by
  match b with
  | [] => exact ⟨fun _ => rfl, fun h => by simp at h⟩
  | [_] => exact ⟨fun _ => rfl, fun h => by simp at h⟩
  | [_, _] => exact ⟨fun _ => rfl, fun h => by simp at h⟩
  | x :: y :: z :: rest =>
    refine ⟨fun h => absurd h (by simp only [List.length_cons]; omega), fun _ h6 => ?_⟩
    match rest, h6 with
    | [], _ => cases is2D <;> exact ⟨_, rfl, rfl, rfl, rfl, rfl, rfl⟩
    | [_], _ => cases is2D <;> exact ⟨_, rfl, rfl, rfl, rfl, rfl, rfl⟩
    | [_, _], _ => cases is2D <;> exact ⟨_, rfl, rfl, rfl, rfl, rfl, rfl⟩
    | [_, _, _], h6 => simp at h6
    | _ :: _ :: _ :: _ :: _, _ => cases is2D <;> exact ⟨_, rfl, rfl, rfl, rfl, rfl, rfl⟩

end Verif.Frame
