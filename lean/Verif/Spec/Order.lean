import Verif.Spec.Assemble

/-!
# Specification: the order of components

A list of components is well ordered if no component names itself or one that comes after it.
-/

namespace Calliope
namespace Assemble

open Grid Expr Build BaseMath Infix

variable {V : Type}

/-- No item uses itself or a later one. -/
def WellOrdered {α : Type} (name : α → String) (uses : α → List String) : List α → Prop
  | [] => True
  | a :: l => (∀ b ∈ a :: l, name b ∉ uses a) ∧ WellOrdered name uses l

/-- The variables of a problem, the global expressions of a problem are well ordered, and no two have the same name. -/
structure Ordered (M : Math V) : Prop where
  vars : WellOrdered Variable.name VariableNames M.vars
  globals : WellOrdered (fun c : Component V => c.defn.name) ComponentNames M.globals
  varNames : (M.vars.map Variable.name).Nodup
  globalNames : (M.globals.map (fun c => c.defn.name)).Nodup

/-- The same components in another order. -/
structure Reordered (M M' : Math V) : Prop where
  vars : M.vars.Perm M'.vars
  globals : M.globals.Perm M'.globals
  constraints : M.constraints.Perm M'.constraints
  objectives : M.objectives.Perm M'.objectives

mutual
/-- The components, not the lookups, that stand in an expression. -/
def Operands : Ex V → List String
  | .num _ | .sub _ => []
  | .comp n | .sliced n _ => [n]
  | .sign _ t | .sum t _ | .roll t _ | .groupDatetime t _ _ | .sumNextN t _ _ | .reduceCarrier t _ | .groupSum t _ _
  | .select t _ => Operands t
  | .cond t c => Operands t ++ Operands c
  | .chain t r => Operands t ++ OperandsRest r
def OperandsRest : ExRest V → List String
  | .one _ t => Operands t
  | .more _ t r => Operands t ++ OperandsRest r
end

/-- The variables and global expressions that stand in a condition. -/
def ResultsLeaf : Where.Leaf → List String
  | .result n | .anyResult n _ => [n]
  | _ => []

mutual
def Results : Tree Where.Op Where.Leaf → List String
  | .atom l => ResultsLeaf l
  | .pre _ t => Results t
  | .chain t r => Results t ++ ResultsRest r
def ResultsRest : Rest Where.Op Where.Leaf → List String
  | .one _ t => Results t
  | .more _ t r => Results t ++ ResultsRest r
end

/-- The array exists, or it is a dimension. -/
def Exists (s : State V) (n : String) : Prop := (s.E.comp n).isSome ∨ s.E.isDim n = true

end Assemble
end Calliope
