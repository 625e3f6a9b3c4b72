import Verif.Spec.BaseBalance

/-!
# What annualised investment costs are about
-/

namespace Calliope
namespace BaseMath

open Grid Infix Expr Expand Build Where

variable {V : Type}

/-- Investment cost, and what it is annualised by. -/
structure CostData [Zero V] (E : Expr.Env V) where
  hours : Point → V
  weight : Point → V
  invest : Point → V
  interest : Point → V
  depreciation : Point → V
  lifetime : Point → V
  isHours : Is E "timestep_resolution" ["timesteps"] hours
  isWeight : Is E "timestep_weights" ["timesteps"] weight
  isInvest : Is E "cost_investment" [] invest
  isInterest : Is E "cost_interest_rate" [] interest
  isDepreciation : Is E "cost_depreciation_rate" [] depreciation
  isLifetime : Is E "lifetime" [] lifetime

/-- The part of a year that is modelled. -/
def CostData.years [Field V] {E : Expr.Env V} (D : CostData E) (ρ : Point) : V :=
  sumOver E "timesteps" (fun σ => D.hours σ * D.weight σ) ρ / 8760

/-- An input is given at an item. -/
def GivenAt (W : Where.Env) (n : String) (ρ : Point) : Prop :=
  Where.Given (W.input n).kind ((W.input n).arr.at ρ)

/-- The yearly part of an investment that is to be paid back with interest in `n` years, so that the payments are worth
the investment today. -/
def Repays [Field V] (a r : V) (n : ℕ) : Prop :=
  ((List.range n).map (fun k => a / (1 + r) ^ (k + 1))).sum = 1

end BaseMath
end Calliope
