import Verif.Names.HeapModel
/-!
# Specification for C170
-/

namespace Verif.Names

/-- What one sees of the parameters at place `i`: the attributes, and the attributes of the molecule. -/
def Mem.see (m : Mem) (i : Nat) : Option Attrs × Option Attrs :=
  (m.objs[i]?, (m.molOf i).bind (fun a => m.mols[a]?))

/-- The program has nothing to do with the parameters at place `j`. -/
def HStmt.Leaves (j : Nat) : HStmt → Prop
  | .skip => True
  | .seq a b => a.Leaves j ∧ b.Leaves j
  | .construct _ => True
  | .assign i _ _ => i ≠ j
  | .newMol i _ => i ≠ j
  | .change i _ _ => i ≠ j
  | .raise _ => True
  | .attempt a b => a.Leaves j ∧ b.Leaves j
  | .context i _ body => i ≠ j ∧ body.Leaves j

/-- The program only assigns attributes of parameters; it changes no molecule. -/
def HStmt.OnlyAssigns : HStmt → Prop
  | .seq a b => a.OnlyAssigns ∧ b.OnlyAssigns
  | .change _ _ _ => False
  | .attempt a b => a.OnlyAssigns ∧ b.OnlyAssigns
  | .context _ _ body => body.OnlyAssigns
  | _ => True

/-- The program does not speak of the molecule at place `a`: neither in a value nor, when that is the default
one, by constructing parameters. -/
def HStmt.NotOf (a : Nat) : HStmt → Prop
  | .seq s t => s.NotOf a ∧ t.NotOf a
  | .construct kwargs => a ≠ 0 ∧ ∀ p ∈ kwargs, p.2 ≠ .obj a
  | .assign _ _ v => v ≠ .obj a
  | .attempt s t => s.NotOf a ∧ t.NotOf a
  | .context _ kwargs body => (∀ p ∈ kwargs, p.2 ≠ .obj a) ∧ body.NotOf a
  | _ => True

/-- C170: programs that have nothing to do with some parameters change nothing one sees of them. -/
def Apart : Prop :=
  ∀ (s : HStmt) (m : Mem) (j : Nat), j < m.objs.length → s.Leaves j → (hexec s m).1.see j = m.see j

/-- C170, for `temp_context`: after the block, left without exception, one sees of the parameters what one saw
before. -/
def PutBack : Prop :=
  ∀ (m m' : Mem) (i : Nat) (d : Attrs) (kwargs : List (String × Val)) (body : HStmt),
    m.objs[i]? = some d → (d.map Prod.fst).Nodup → hexec (.context i kwargs body) m = (m', none) →
    (∀ k v, Dict.get? d k = some v → ((m'.objs[i]?).bind (fun d' => Dict.get? d' k)) = some v) ∧
      ∀ a x, m.molOf i = some a → m.mols[a]? = some x → (m'.see i).2 = some x

end Verif.Names
