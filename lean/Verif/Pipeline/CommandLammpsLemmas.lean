import Verif.Pipeline.CommandLemmas
import Verif.Pipeline.LammpsProps
/-!
# Lemmas for C167
-/

namespace Verif.Pipeline

open Verif.Motion Verif.Dynamics Verif.Relax Verif.Gsd Verif.Process Verif.Cache Verif.Names Verif.Text

/-- The name that `SimulationParams.filename` makes, with another extension. -/
theorem named_vars (p : Params) (pre : Option (List Char)) (hpre : KnownPrefix pre)
    (hP : 0 ≤ p.pressure) (hT : 0 ≤ p.temperature) (hsg : ∀ sg ∈ p.spaceGroup, SpaceGroupName sg)
    {ext : List Char} (he : Extension ext) :
    suffix (namedPath p.output (pre.toList ++ p.molecule.str :: p.pieces) ext) = '.' :: ext ∧
      ∃ v, fromFilename (namedPath p.output (pre.toList ++ p.molecule.str :: p.pieces) ext) = .ok v ∧
      v.temperature = some (fmt2 p.temperature) ∧ v.pressure = some (fmt2 p.pressure) := by
  have hsg' : ∀ sg ∈ p.spaceGroup, Plain sg := fun sg h => (hsg sg h).1
  have hplain : ∀ w ∈ p.molecule.str :: p.pieces, Plain w := by
    intro w hw
    unfold Params.pieces at hw
    simp only [List.cons_append, List.nil_append, List.append_assoc, List.mem_cons,
      List.mem_append] at hw
    rcases hw with rfl | rfl | rfl | hw | hw | hw
    · exact (molClass_plain _).1
    · exact plain_P _ hP _ (Or.inl rfl)
    · exact plain_P _ hT _ (Or.inr rfl)
    · exact (optPieces_crystal _ (Or.inl rfl) _ w hw).2
    · exact (optPieces_crystal _ (Or.inr rfl) _ w hw).2
    · exact hsg' w (by simpa using hw)
  constructor
  · rcases hpre with rfl | rfl | rfl | rfl
    · exact suffix_named _ _ _ _ (molClass_plain _).2 hplain he
    all_goals
      refine suffix_named _ _ _ _ (by decide) ?_ he
      intro w hw
      rcases List.mem_cons.1 hw with rfl | hw
      · constructor <;> decide
      · exact hplain w hw
  · have hfrom : fromFilename (namedPath p.output (pre.toList ++ p.molecule.str :: p.pieces) ext) =
        Variables.items Variables.empty (p.molecule.str :: p.pieces) := by
      unfold fromFilename
      have hsplit : splitOn '-' (stem (pathName
          (namedPath p.output (pre.toList ++ p.molecule.str :: p.pieces) ext))) =
          pre.toList ++ p.molecule.str :: p.pieces := by
        rcases hpre with rfl | rfl | rfl | rfl
        · exact pieces_of_named _ _ _ _ (molClass_plain _).2 hplain he
        all_goals
          refine pieces_of_named _ _ _ _ (by decide) ?_ he
          intro w hw
          rcases List.mem_cons.1 hw with rfl | hw
          · constructor <;> decide
          · exact hplain w hw
      simp only [hsplit, dropPrefix_known pre hpre]
      rw [if_neg]
      unfold Params.pieces
      simp
    rw [hfrom, pieces_eq, items_mol]
    apply items_keep
    intro w hw
    rcases List.mem_append.1 hw with hw | hw
    · rcases List.mem_append.1 hw with hw | hw
      · exact (optPieces_crystal _ (Or.inl rfl) _ w hw).1
      · exact (optPieces_crystal _ (Or.inr rfl) _ w hw).1
    · exact ⟨rfl, (hsg w (by simpa using hw)).2⟩

/-- All frames of a lammps file are handed out for keyframe 0. -/
theorem readLammps_zero (float : List Char → Option ℝ) (src : List Char) (m : Option Int) :
    ∀ p ∈ (Lammps.readLammps float src m).1, p.1 = [0] := by
  unfold Lammps.readLammps
  generalize Lammps.parseLammps float src = r
  obtain ⟨l, e⟩ := r
  induction l with
  | nil => intro p hp; simp [Lammps.readLoop] at hp
  | cons f l ih =>
    intro p hp
    simp only [Lammps.readLoop] at hp
    split at hp
    · simp at hp
    · rcases List.mem_cons.1 hp with rfl | hp
      · rfl
      · exact ih p hp

theorem lammpsPairs_zero (junk : ℝ) (e : Option PyErr) : ∀ (ps : List (List ℕ × Lammps.LFrame ℝ)),
    (∀ p ∈ ps, p.1 = [0]) → ∀ q ∈ (lammpsPairs junk e ps).1, q.1 = [0]
  | [], _ => by simp [lammpsPairs]
  | p :: ps, h => by
    intro q hq
    unfold lammpsPairs at hq
    split at hq
    · simp at hq
    · rcases List.mem_cons.1 hq with rfl | hq
      · exact h p (by simp)
      · exact lammpsPairs_zero junk e ps (fun p hp => h p (by simp [hp])) q hq

theorem expected_keys {ι Φ D R ρ σ ν : Type} [DecidableEq ι] (E : Env Φ D R ρ σ ν) (k : ι) :
    ∀ (vs past : List (ι × Φ)), (∀ v ∈ vs, v.1 = k) → ∀ x ∈ expected E past vs, x.1 = k := by
  intro vs
  induction vs with
  | nil => intro past _ x hx; simp [expected] at hx
  | cons v vs ih =>
    intro past h x hx
    obtain ⟨k', f⟩ := v
    simp only [expected] at hx
    rcases List.mem_append.1 hx with hx | hx
    · simp only [Option.mem_toList, Option.map_eq_some_iff] at hx
      obtain ⟨row, -, rfl⟩ := hx
      exact h (k', f) (by simp)
    · exact ih _ (fun v hv => h v (by simp [hv])) x hx

/-- The rows of a run on a lammps file are rows of keyframe 0 with the temperature and pressure of the
run. -/
theorem lammps_rows {ν : Type} (a : Args) (v : ν) (float : List Char → Option ℝ) (junk : ℝ)
    (src : List Char) (m : Option Int)
    {file file' : File (Rec ℕ (Dict Quantity Dynamics.Val) (Dict String ℤ) ν)}
    {o : Option (List (Rec ℕ (Dict Quantity Dynamics.Val) (Dict String ℤ) ν))}
    (h : processLammps a (.ok v) float junk src m true file = (file', .ok o))
    (hne : rows file "dynamics" = []) :
    rows file' "dynamics" = ((rows file' "dynamics").filterMap (dynOf 0)).map (fun d => .dyn 0 d v) := by
  unfold processLammps at h
  generalize hq : lammpsPairs junk (Lammps.readLammps float src m).2 (Lammps.readLammps float src m).1 = q at h
  have h1 := rows_vars a v h hne
  have h2 := (C26_rows _ _ _ _ _ _ h (Or.inl hne)).1
  have h3 : ∀ w ∈ visitsOf (env a (.ok v)) q.1, w.1 = 0 := by
    intro w hw
    simp only [visitsOf, List.mem_flatMap] at hw
    obtain ⟨p, hp, hw⟩ := hw
    have hp0 : p.1 = [0] := by
      rw [← hq] at hp
      exact lammpsPairs_zero _ _ _ (readLammps_zero float src m) p hp
    split at hw
    · simp at hw
    · rw [hp0] at hw
      simp only [List.map_cons, List.map_nil, List.mem_singleton] at hw
      rw [hw]
  have h4 := expected_keys (env a (.ok v)) 0 _ [] h3
  rw [← h2] at h4
  have h5 : ∀ r ∈ rows file' "dynamics", ∃ d, r = .dyn 0 d v := by
    intro r hr
    obtain ⟨k, d, rfl⟩ := h1 r hr
    have := h4 (k, d) (List.mem_filterMap.2 ⟨_, hr, rfl⟩)
    simp only at this
    exact ⟨d, by rw [this]⟩
  generalize rows file' "dynamics" = l at h5
  induction l with
  | nil => rfl
  | cons r l ih =>
    obtain ⟨d, rfl⟩ := h5 r (by simp)
    have := ih (fun r hr => h5 r (by simp [hr]))
    simp only [List.filterMap_cons, dynOf, if_true, List.map_cons]
    rw [← this]

end Verif.Pipeline
