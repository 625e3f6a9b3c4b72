import Verif.Model.Build
import Verif.Spec.Where
import Verif.Spec.Expr

/-!
# What adding a component should yield
-/

namespace Calliope
namespace Build

open Grid Infix Expr Expand Where

variable {V : Type}

/-- An equation applies at an item: the model has the dimensions of the component, the item is in the
definition matrix and satisfies the condition of the component, and it satisfies the conditions of the equation (each
for some labels of the dimensions that the component does not have). -/
def Applies (W : Where.Env) (c : Component V) (ρ : Point) (e : Equation V Cond) : Prop :=
  (∀ d ∈ c.foreach, d ∈ W.matrix.dims ∨ d ∈ W.dims) ∧
  (∃ σ, Valid W σ ∧ SameAlong c.foreach ρ σ ∧ W.matrix.at σ = true ∧ Truth W σ c.top) ∧
  ∃ σ, Valid W σ ∧ SameAlong c.foreach ρ σ ∧ ∀ w ∈ e.wheres, Truth W σ w

/-- The meaning of an expression of an equation at an item, with its sub-expressions and slices. -/
def value [AddCommMonoid V] (E : Expr.Env V) (e : Equation V Cond) (t : Ex V) (ρ : Point) : Option V :=
  (mean E (fun n => e.slices.lookup n) (fun _ => true) [] (inline (fun n => e.subs.lookup n) t)).val ρ

/-- The expression is one whose meaning at an item does not depend on other items of the component. -/
def Simple (c : Component V) (e : Equation V Cond) (t : Ex V) : Prop :=
  Ok (inline (fun n => e.subs.lookup n) t) ∧ Apart c.foreach (inline (fun n => e.subs.lookup n) t)

end Build
end Calliope
