import Mathlib.Algebra.Order.Field.Basic
import Verif.Model.Piecewise
import Verif.Spec.Build

/-!
# What a piecewise constraint should say
-/

namespace Calliope
namespace Piecewise

open Grid Infix Expr Expand Build Where

variable {V : Type}

/-- The point `(x, y)` is on the straight line from `p` to `q`. -/
def Between [Field V] [LE V] (p q : V × V) (x y : V) : Prop :=
  ∃ s, 0 ≤ s ∧ s ≤ 1 ∧ x = p.1 + s * (q.1 - p.1) ∧ y = p.2 + s * (q.2 - p.2)

/-- The point `(x, y)` is on the line through the points. -/
def OnLine [Field V] [LE V] : List (V × V) → V → V → Prop
  | p :: q :: r, x, y => Between p q x y ∨ OnLine (q :: r) x y
  | _, _, _ => False

/-- A solution, in which expressions have these values, satisfies the piecewise constraint at an item. -/
def Holds [Field V] [LE V] (b : Arr (Option (Item V))) (ρ : Point) : Prop :=
  ∀ x y ps, b.at ρ = some ⟨some x, some y, ps⟩ → OnLine ps x y

/-- The value that the data give for a breakpoint; it may be missing. -/
def given (E : Expr.Env V) (n : String) (ρ : Point) (l : Label) : Option V :=
  match E.comp n with
  | some c => c.arr.at (set ρ "breakpoints" l)
  | none => none

/-- The points that the data give: the breakpoints, in their order, for which both values are given. -/
def pairs (E : Expr.Env V) (d : Definition V) (ρ : Point) : List (V × V) :=
  (E.coords "breakpoints").filterMap (fun l =>
    (given E d.xValues ρ l).bind (fun x => (given E d.yValues ρ l).map (fun y => (x, y))))

/-- At each breakpoint either both values are given or none. -/
def Aligned (E : Expr.Env V) (d : Definition V) (ρ : Point) : Prop :=
  ∀ l ∈ E.coords "breakpoints", given E d.xValues ρ l = none ↔ given E d.yValues ρ l = none

/-- The item is one of the component: for some labels of the other dimensions it is in the definition matrix and
satisfies the condition. -/
def HasItem (W : Where.Env) (d : Definition V) (ρ : Point) : Prop :=
  (∀ s ∈ d.foreach, s ∈ W.matrix.dims ∨ s ∈ W.dims) ∧
  ∃ σ, Valid W σ ∧ SameAlong d.foreach ρ σ ∧ W.matrix.at σ = true ∧ Truth W σ d.top

/-- The value of an expression at an item. -/
def valueOf [AddCommMonoid V] (E : Expr.Env V) (t : Ex V) (ρ : Point) : Option V :=
  (mean E (fun _ => none) (fun _ => true) [] t).val ρ

/-- What solver interfaces accept has as many values as breakpoints. -/
def Sound (accepts : List V → List V → Bool) : Prop := ∀ xs ys, accepts xs ys = true → xs.length = ys.length

end Piecewise
end Calliope
