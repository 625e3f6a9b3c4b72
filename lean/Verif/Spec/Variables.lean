import Verif.Spec.Costs
import Verif.Model.Variables

/-!
# What decision variables are
-/

namespace Calliope
namespace BaseMath

open Grid Infix Expr Expand Build Where

variable {V : Type}

/-- The value of a bound at an item; `none` if there is no bound. -/
def boundAt (E : Expr.Env V) : Bound V → Point → Option V
  | .num v, _ => some v
  | .unbounded, _ => none
  | .input n, ρ => valueAt E n ρ

/-- An item of a variable: for some labels of the other dimensions it is in the model and meets the condition. -/
def ItemOf (W : Where.Env) (v : Variable V) (ρ : Point) : Prop :=
  (∀ d ∈ v.foreach, d ∈ W.matrix.dims ∨ d ∈ W.dims) ∧
    ∃ σ, Valid W σ ∧ SameAlong v.foreach ρ σ ∧ W.matrix.at σ = true ∧ Truth W σ v.top

/-- A solution gives the variable, as it was built, the values `f`: within the bounds and in the domain of the variable
where it exists, zero elsewhere. -/
structure Chosen [Field V] [LE V] (W : Where.Env) (E : Expr.Env V) (v : Variable V) (b : Arr (Option (Limits V)))
    (f : Point → V) : Prop where
  built : buildVariable W E v = .ok b
  is : Is E v.name v.foreach f
  within : ResultWithin W v.foreach v.name
  exist : ∀ ρ, Valid W ρ → (Exists W v.name ρ ↔ b.at ρ ≠ none)
  absent : ∀ ρ, Valid W ρ → b.at ρ = none → f ρ = 0
  lower : ∀ ρ x u, Valid W ρ → b.at ρ = some ⟨some x, u⟩ → x ≤ f ρ
  upper : ∀ ρ l y, Valid W ρ → b.at ρ = some ⟨l, some y⟩ → f ρ ≤ y
  domain : ∀ ρ, Valid W ρ → b.at ρ ≠ none → v.integer = true → ∃ k : Int, f ρ = k

/-- A solution gives the variable the values `f`. -/
def Solves [Field V] [LE V] (W : Where.Env) (E : Expr.Env V) (v : Variable V) (f : Point → V) : Prop :=
  ∃ b, Chosen W E v b f

end BaseMath
end Calliope
