import Verif.Model.MathText
import Verif.Spec.Grammar

/-!
# Specification: the strings of a component, and the names that a math file gives
-/

namespace Calliope
namespace MathText

open Grammar (Str Tok Written idsOf)

/-- The strings of entries of `equations`, `sub_expressions` or `slices`. -/
def itemTexts : List RawItem → List Str
  | [] => []
  | ⟨some c, e⟩ :: r => c :: e :: itemTexts r
  | ⟨none, e⟩ :: r => e :: itemTexts r

/-- The strings of a component. -/
def Raw.texts (r : Raw) : List Str :=
  r.cond.toList ++ itemTexts (r.equations.getD []) ++ r.subs.flatMap (fun p => itemTexts p.2) ++
    r.slices.flatMap (fun p => itemTexts p.2)

/-- `n` is a word of a string of the component. -/
def Mentions (r : Raw) (n : Str) : Prop := ∃ s ∈ r.texts, ∃ ts, Written false s ts ∧ n ∈ idsOf ts

/-- A file leaves the name as it is in a group: what the file defines under that name is defined already, and stays
active or not as it is. -/
def KeepsIn (l m : List Raw) (n : Str) : Prop := ∀ x ∈ m, x.name = n → x.active = none ∧ ∃ r ∈ l, r.name = n

/-- A file leaves the name as it is. -/
structure Keeps (b m : File) (n : Str) : Prop where
  dimensions : KeepsIn b.dimensions m.dimensions n
  parameters : KeepsIn b.parameters m.parameters n
  lookups : KeepsIn b.lookups m.lookups n
  vars : KeepsIn b.vars m.vars n
  globals : KeepsIn b.globals m.globals n
  postprocessed : KeepsIn b.postprocessed m.postprocessed n

/-- The file leaves the names that the component mentions as they are, and it does not define the component again. -/
def Leaves (b m : File) (group : List Raw) (r : Raw) : Prop :=
  (∀ x ∈ group, x.name ≠ r.name) ∧ ∀ n, Mentions r n → Keeps b m n

/-- The file leaves the variables, expressions, constraints, objectives, postprocessed arrays and checks as they are. -/
structure New (b m : File) : Prop where
  vars : ∀ r ∈ b.vars, Leaves b m m.vars r
  globals : ∀ r ∈ b.globals, Leaves b m m.globals r
  constraints : ∀ r ∈ b.constraints, Leaves b m m.constraints r
  objectives : ∀ r ∈ b.objectives, Leaves b m m.objectives r
  postprocessed : ∀ r ∈ b.postprocessed, Leaves b m m.postprocessed r
  checks : ∀ r ∈ b.checks, Leaves b m m.checks r

end MathText
end Calliope
