import Verif.Thermo.Model
/-!
# Vocabulary for the properties of the dashboard
-/

namespace Verif.Thermo

variable {V : Type}

/-- The data shown are those of the file chosen, in the directory chosen, and the quantity chosen. -/
def Shows (disk : Disk V) (s : St V) : Prop :=
  s.file ∈ disk.glob s.dir ∧ ∃ df, disk.read s.dir s.file = .ok df ∧
    Dict.get? s.defaults "x" = Dict.get? df "timestep" ∧
    (∀ q ∈ ["temperature", "pressure", "potential_energy", "kinetic_energy"],
      Dict.get? s.defaults q = Dict.get? df q) ∧
    Dict.get? s.data "x" = Dict.get? df "timestep" ∧ Dict.get? s.data "y" = Dict.get? df s.factor

/-- A table as the simulations write it: the five columns that are plotted. -/
def Complete (df : DF V) : Prop :=
  (df.map Prod.fst).Nodup ∧
    ∀ q ∈ ["timestep", "temperature", "pressure", "potential_energy", "kinetic_energy"],
      (Dict.get? df q).isSome

/-- All directories have files, all files can be read and have the columns. -/
structure Good (disk : Disk V) : Prop where
  files : ∀ d, disk.glob d ≠ []
  reads : ∀ d, ∀ f ∈ disk.glob d, ∃ df, disk.read d f = .ok df ∧ Complete df
  named : ∀ d, ∀ f ∈ disk.glob d, f ≠ ""

/-- What the widgets let the user do: choose among the options. -/
def Offered (s : St V) : Event → Prop
  | .dir _ => True
  | .file new => new ∈ s.fileOptions
  | .factor new => new ∈ s.factorOptions

/-- A sequence of events each of which is offered. -/
def AllOffered (disk : Disk V) : St V → List Event → Prop
  | _, [] => True
  | s, e :: es => Offered s e ∧ AllOffered disk (step disk s e).1 es

end Verif.Thermo
