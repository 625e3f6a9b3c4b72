import Verif.Spec.BaseValue
import Verif.Model.BaseCosts

/-!
# What costs and the objective are about
-/

namespace Calliope
namespace BaseMath

open Grid Infix Expr Expand Build Where

variable {V : Type}

/-- The dimensions of a model with costs. -/
structure Frame (W : Where.Env) : Prop where
  matrix : ∀ d ∈ W.matrix.dims, d ∈ ["nodes", "techs", "carriers"]
  dims : ∀ d ∈ ["nodes", "techs", "carriers", "costs", "timesteps"], d ∈ W.dims
  labels : ∀ d ∈ ["nodes", "techs", "carriers", "costs", "timesteps"], W.coords d ≠ []

/-- A price: zero where it is not given. -/
structure Price [Zero V] (W : Where.Env) (E : Expr.Env V) (n : String) (f : Point → V) : Prop where
  is : Is E n [] f
  missing : ∀ ρ, Valid W ρ → ¬ GivenAt W n ρ → f ρ = 0

/-- A decision variable: zero where it does not exist. -/
structure Decision [Zero V] (W : Where.Env) (E : Expr.Env V) (n : String) (ds : List String) (f : Point → V) :
    Prop where
  is : Is E n ds f
  only : ∀ ρ, Valid W ρ → f ρ ≠ 0 → InModel W ds ρ ∧ Exists W n ρ
  within : ResultWithin W ds n

/-- A global expression, as it was built: zero where it does not exist. -/
structure Known [Zero V] (W : Where.Env) (E : Expr.Env V) (n : String) (ds : List String) (b : Arr (Option V))
    (f : Point → V) : Prop where
  is : Is E n ds f
  value : ∀ ρ, Valid W ρ → f ρ = (b.at ρ).getD 0
  built : ∀ ρ, Valid W ρ → (Exists W n ρ ↔ b.at ρ ≠ none)
  within : ResultWithin W ds n

/-- A quantity is what the global expression of the component builds, under its name. -/
def Defines [AddCommMonoid V] (W : Where.Env) (E : Expr.Env V) (enum : List String → List String) (c : Component V)
    (f : Point → V) : Prop :=
  ∃ b, buildExpression W E enum c = .ok b ∧ Known W E c.defn.name c.foreach b f

/-- Decisions and prices. -/
structure CostModel [Zero V] (W : Where.Env) (E : Expr.Env V) where
  flowCap : Point → V
  storageCap : Point → V
  sourceCap : Point → V
  area : Point → V
  out : Point → V
  inn : Point → V
  exp : Point → V
  source : Point → V
  perFlowCap : Point → V
  perDistance : Point → V
  distance : Point → V
  perStorageCap : Point → V
  perSourceCap : Point → V
  perArea : Point → V
  perYear : Point → V
  fraction : Point → V
  perExport : Point → V
  perOut : Point → V
  perIn : Point → V
  perSource : Point → V
  hours : Point → V
  weight : Point → V
  isFlowCap : Decision W E "flow_cap" ["nodes", "techs", "carriers"] flowCap
  isStorageCap : Decision W E "storage_cap" ["nodes", "techs"] storageCap
  isSourceCap : Decision W E "source_cap" ["nodes", "techs"] sourceCap
  isArea : Decision W E "area_use" ["nodes", "techs"] area
  isOut : Decision W E "flow_out" ["nodes", "techs", "carriers", "timesteps"] out
  isInn : Decision W E "flow_in" ["nodes", "techs", "carriers", "timesteps"] inn
  isExp : Decision W E "flow_export" ["nodes", "techs", "carriers", "timesteps"] exp
  isSource : Decision W E "source_use" ["nodes", "techs", "timesteps"] source
  isPerFlowCap : Price W E "cost_flow_cap" perFlowCap
  isPerDistance : Price W E "cost_flow_cap_per_distance" perDistance
  isDistance : Is E "distance" [] distance
  isPerStorageCap : Price W E "cost_storage_cap" perStorageCap
  isPerSourceCap : Price W E "cost_source_cap" perSourceCap
  isPerArea : Price W E "cost_area_use" perArea
  isPerYear : Price W E "cost_om_annual" perYear
  isFraction : Price W E "cost_om_annual_investment_fraction" fraction
  isPerExport : Price W E "cost_export" perExport
  isPerOut : Price W E "cost_flow_out" perOut
  isPerIn : Price W E "cost_flow_in" perIn
  isPerSource : Price W E "cost_source_use" perSource
  isHours : Is E "timestep_resolution" ["timesteps"] hours
  isWeight : Is E "timestep_weights" ["timesteps"] weight

section
variable [Field V] {W : Where.Env} {E : Expr.Env V} (C : CostModel W E)

/-- The part of a year that is modelled. -/
def CostModel.years (ρ : Point) : V := sumOver E "timesteps" (fun σ => C.hours σ * C.weight σ) ρ / 8760

/-- Investment in flow capacity; each end of a link pays one half. -/
def CostModel.flowCapCost (ρ : Point) : V :=
  (if Text W "base_tech" "transmission" ρ then (C.perFlowCap ρ + C.perDistance ρ * C.distance ρ) * (1 / 2)
    else C.perFlowCap ρ) * C.flowCap ρ

/-- Investment. -/
def CostModel.invest (ρ : Point) : V :=
  sumOver E "carriers" C.flowCapCost ρ + C.perStorageCap ρ * C.storageCap ρ + C.perSourceCap ρ * C.sourceCap ρ +
    C.perArea ρ * C.area ρ

/-- Costs of one time step, times its weight. -/
def CostModel.variableCost (ρ : Point) : V :=
  C.weight ρ * (sumOver E "carriers" (fun σ => C.perExport σ * C.exp σ) ρ +
    sumOver E "carriers" (fun σ => C.perOut σ * C.out σ) ρ +
    (if Text W "base_tech" "supply" ρ then C.perSource ρ * C.source ρ
      else sumOver E "carriers" (fun σ => C.perIn σ * C.inn σ) ρ))

/-- Costs of the modelled part of the year that do not depend on flows. -/
def CostModel.fixedCost (ρ : Point) : V :=
  C.years ρ * (sumOver E "carriers" (fun σ => C.perYear σ * C.flowCap σ) ρ + C.invest ρ * C.fraction ρ)

/-- All costs of a technology at a node, with `annual` for the annualised investment. -/
def CostModel.total (annual : Point → V) (ρ : Point) : V :=
  annual ρ + sumOver E "timesteps" C.variableCost ρ + C.fixedCost ρ

/-- The inputs that costs depend on have no other dimensions than them. -/
structure CostShapes (W : Where.Env) : Prop where
  tech : Within W ["nodes", "techs"] ["base_tech"]
  flow : Within W ["nodes", "techs", "carriers", "costs"] ["cost_flow_cap", "cost_flow_cap_per_distance"]
  caps : Within W ["nodes", "techs", "costs"]
    ["cost_storage_cap", "cost_source_cap", "cost_area_use", "cost_om_annual_investment_fraction"]
  source : Within W ["nodes", "techs", "costs", "timesteps"] ["cost_source_use"]

end

/-- The global expressions of the costs, as they are built. -/
structure CostExpressions [Field V] (W : Where.Env) (E : Expr.Env V) (enum : List String → List String) where
  flowCap : Point → V
  storageCap : Point → V
  sourceCap : Point → V
  area : Point → V
  invest : Point → V
  annual : Point → V
  running : Point → V
  fixed : Point → V
  cost : Point → V
  isFlowCap : Defines W E enum costInvestmentFlowCap flowCap
  isStorageCap : Defines W E enum costInvestmentStorageCap storageCap
  isSourceCap : Defines W E enum costInvestmentSourceCap sourceCap
  isArea : Defines W E enum costInvestmentAreaUse area
  isInvest : Defines W E enum costInvestment invest
  isAnnual : Defines W E enum costInvestmentAnnualised annual
  isVariable : Defines W E enum costOperationVariable running
  isFixed : Defines W E enum costOperationFixed fixed
  isCost : Defines W E enum costTotal cost

/-- The rate at which an investment is annualised: the given rate; without it, the straight line over the lifetime; or
the annuity. -/
def AnnualRate [Field V] (W : Where.Env) (pw : V → V → V) (rate interest lifetime : Point → V) (ρ : Point) (r : V) :
    Prop :=
  (GivenAt W "cost_depreciation_rate" ρ ∧ r = rate ρ) ∨
  (¬ GivenAt W "cost_depreciation_rate" ρ ∧
    (¬ GivenAt W "cost_interest_rate" ρ ∨ valueOf (W.input "cost_interest_rate") ρ = .num 0) ∧ lifetime ρ ≠ 0 ∧
    r = 1 / lifetime ρ) ∨
  (¬ GivenAt W "cost_depreciation_rate" ρ ∧ (∃ q, valueOf (W.input "cost_interest_rate") ρ = .num q ∧ 0 < q) ∧
    pw (1 + interest ρ) (lifetime ρ) - 1 ≠ 0 ∧
    r = interest ρ * pw (1 + interest ρ) (lifetime ρ) / (pw (1 + interest ρ) (lifetime ρ) - 1))

/-- The objective: unmet demand and unused supply, weights of cost classes and the penalty. -/
structure ObjectiveData [Zero V] (E : Expr.Env V) where
  unmet : Point → V
  unused : Point → V
  classWeight : Point → V
  penalty : Point → V
  isUnmet : Is E "unmet_demand" ["nodes", "carriers", "timesteps"] unmet
  isUnused : Is E "unused_supply" ["nodes", "carriers", "timesteps"] unused
  isClassWeight : Is E "objective_cost_weights" [] classWeight
  isPenalty : Is E "bigM" [] penalty

/-- Weighted costs of all technologies at all nodes, and the penalty for demand that is not met and supply that is not
used (a negative number). -/
def ObjectiveData.value [Field V] {E : Expr.Env V} (O : ObjectiveData E) (cost weight : Point → V) (ρ : Point) : V :=
  sumOver E "costs" (fun σ => sumOver E "nodes" (sumOver E "techs" cost) σ * O.classWeight σ) ρ +
    sumOver E "timesteps" (fun σ =>
      sumOver E "carriers" (sumOver E "nodes" (fun τ => O.unmet τ - O.unused τ)) σ * weight σ) ρ * O.penalty ρ

/-- A link between two nodes: its capacity, its prices and its length are the same at both of its ends, and it has no
capacity at other nodes. -/
structure LinkData [Field V] {W : Where.Env} {E : Expr.Env V} (C : CostModel W E) (ρ : Point) (a b : Label)
    (price perDistance distance perYear link : V) : Prop where
  differ : a ≠ b
  nodes : a ∈ W.coords "nodes" ∧ b ∈ W.coords "nodes" ∧ (W.coords "nodes").Nodup
  kind : ∀ l ∈ [a, b], Text W "base_tech" "transmission" (set ρ "nodes" l)
  model : ∀ l ∈ [a, b], InModel W ["nodes", "techs"] (set ρ "nodes" l)
  elsewhere : ∀ l, l ≠ a → l ≠ b → ∀ c, C.flowCap (set (set ρ "nodes" l) "carriers" c) = 0
  isPrice : ∀ l ∈ [a, b], ∀ c, C.perFlowCap (set (set ρ "nodes" l) "carriers" c) = price
  isPerDistance : ∀ l ∈ [a, b], ∀ c, C.perDistance (set (set ρ "nodes" l) "carriers" c) = perDistance
  isDistance : ∀ l ∈ [a, b], ∀ c, C.distance (set (set ρ "nodes" l) "carriers" c) = distance
  isPerYear : ∀ l ∈ [a, b], ∀ c, C.perYear (set (set ρ "nodes" l) "carriers" c) = perYear
  isLink : ∃ f, Is E "link_flow_cap" [] f ∧ ∀ l ∈ [a, b], f (set ρ "nodes" l) = link

end BaseMath
end Calliope
