import Verif.Spec.BaseBalance
import Verif.Spec.BaseCost

/-!
# Values of components and solutions of constraints
-/

namespace Calliope
namespace BaseMath

open Grid Infix Expr Expand Build Where

variable {V : Type}

/-- The value of a component at a point: what it holds there, or its default. -/
def valueAt (E : Expr.Env V) (n : String) (ρ : Point) : Option V :=
  match E.comp n with
  | some c => (c.arr.at ρ).or c.default
  | none => none

/-- A technology with storage. -/
def HasStorage (W : Where.Env) (ρ : Point) : Prop :=
  Flag W "include_storage" ρ ∨ Text W "base_tech" "storage" ρ

/-- The first label of a dimension. -/
def FirstOf (W : Where.Env) (d : String) (ρ : Point) : Prop := (W.coords d).head? = some (ρ d)

/-- The label before along a dimension, the last one for the first. -/
def back (E : Expr.Env V) (d : String) (ρ : Point) : Point := set ρ d (rolled (E.coords d) 1 (ρ d))

end BaseMath
end Calliope
