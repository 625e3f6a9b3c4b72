import Verif.Spec.BaseBalance

/-!
# What total generation should be
-/

namespace Calliope
namespace BaseMath

open Grid Infix Expr Expand Build Where

variable {V : Type}

/-- Outflow (which export is a part of), export, and the weights of time steps. -/
structure Generation [Zero V] (E : Expr.Env V) where
  out : Point → V
  exp : Point → V
  weight : Point → V
  isOut : Is E "flow_out" ["nodes", "timesteps"] out
  isExp : Is E "flow_export" ["nodes", "timesteps"] exp
  isWeight : Is E "timestep_weights" [] weight

/-- The sum over all nodes and time steps. -/
def total2 [AddCommMonoid V] (E : Expr.Env V) (f : Point → V) : Point → V :=
  sumOver E "nodes" (sumOver E "timesteps" f)

/-- Outflow of the period that the model stands for: a time step of weight `w` stands for `w` of them. -/
def Generation.represented [Field V] {E : Expr.Env V} (G : Generation E) : Point → V :=
  total2 E (fun σ => G.out σ * G.weight σ)

/-- A technology and carrier with outflow, not a demand, at some node and time step of the model. -/
def Generates (W : Where.Env) (ρ : Point) : Prop :=
  (∀ d ∈ ["techs", "carriers"], d ∈ W.matrix.dims ∨ d ∈ W.dims) ∧
  ∃ σ, Valid W σ ∧ SameAlong ["techs", "carriers"] ρ σ ∧ W.matrix.at σ = true ∧ Exists W "flow_out" σ ∧
    ¬ Text W "base_tech" "demand" σ

end BaseMath
end Calliope
