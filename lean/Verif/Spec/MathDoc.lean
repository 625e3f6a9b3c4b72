import Verif.Model.MathDoc

/-!
# What a reader expects from the math documentation

Stated on the definitions given to the backend, not on the backend's dataset.
-/

namespace Calliope
namespace MathDoc

/-- The definition of `d` names `a`: in its where string, in an equation, or in a bound, an
expression or a value. -/
def Mentions (d : Decl) (a : String) : Prop :=
  a ∈ d.topRefs ∨ (∃ e ∈ d.eqs, a ∈ e.refs) ∨ (∃ p ∈ d.parts, a ∈ p.refs)

/-- `x` is added before `y`. -/
def Earlier (ds : List Decl) (x y : Decl) : Prop :=
  ∃ l₁ l₂ l₃, ds = l₁ ++ x :: (l₂ ++ y :: l₃)

/-- A group whose components are made of equations. -/
def OfEquations (g : Grp) : Prop :=
  g = .objectives ∨ g = .constraints ∨ g = .globalExpressions ∨ g = .postprocessed

/-- The component exists for some index item of the model. -/
def Applies (d : Decl) : Prop :=
  d.active = true ∧ d.top = true ∧ (OfEquations d.group → ∃ e ∈ d.eqs, e.holds = true)

/-- The names listed under a heading, in the order of the document. -/
def namesIn (doc : List (Grp × List Item)) (g : Grp) : List String :=
  (doc.filter (fun x => x.1 == g)).flatMap (fun x => x.2.map Item.name)

/-- `i` is the account of a component of group `g` in the document. -/
def Shown (doc : List (Grp × List Item)) (g : Grp) (i : Item) : Prop :=
  ∃ l, (g, l) ∈ doc ∧ i ∈ l

end MathDoc
end Calliope
