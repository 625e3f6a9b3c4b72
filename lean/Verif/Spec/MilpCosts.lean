import Verif.Spec.Costs

/-!
# What the costs of purchases, and the costs in operate mode, are about
-/

namespace Calliope
namespace BaseMath

open Grid Infix Expr Expand Build Where

variable {V : Type}

/-- Purchases and their prices. -/
structure PurchaseModel [Zero V] (W : Where.Env) (E : Expr.Env V) where
  units : Point → V
  perUnit : Point → V
  perUnitDistance : Point → V
  isUnits : Decision W E "purchased_units" ["nodes", "techs"] units
  isPerUnit : Price W E "cost_purchase" perUnit
  isPerUnitDistance : Price W E "cost_purchase_per_distance" perUnitDistance

/-- What the purchases of a technology at a node cost; each end of a link pays one half. -/
def PurchaseModel.cost [Field V] {W : Where.Env} {E : Expr.Env V} (P : PurchaseModel W E) (distance : Point → V)
    (ρ : Point) : V :=
  (if Text W "base_tech" "transmission" ρ then (P.perUnit ρ + P.perUnitDistance ρ * distance ρ) * (1 / 2)
    else P.perUnit ρ) * P.units ρ

/-- At a point, a link that has a price per distance for its purchase has a price for its purchase, too. -/
def Priced (W : Where.Env) (ρ : Point) : Prop :=
  Text W "base_tech" "transmission" ρ → GivenAt W "cost_purchase_per_distance" ρ → GivenAt W "cost_purchase" ρ

/-- The global expressions of the costs of a model with units, as they are built. -/
structure MilpExpressions [Field V] (W : Where.Env) (E : Expr.Env V) (enum : List String → List String) where
  flowCap : Point → V
  storageCap : Point → V
  sourceCap : Point → V
  area : Point → V
  purchase : Point → V
  invest : Point → V
  annual : Point → V
  running : Point → V
  fixed : Point → V
  cost : Point → V
  isFlowCap : Defines W E enum costInvestmentFlowCap flowCap
  isStorageCap : Defines W E enum costInvestmentStorageCap storageCap
  isSourceCap : Defines W E enum costInvestmentSourceCap sourceCap
  isArea : Defines W E enum costInvestmentAreaUse area
  isPurchase : Defines W E enum costInvestmentPurchase purchase
  isInvest : Defines W E enum costInvestmentMilp invest
  isAnnual : Defines W E enum costInvestmentAnnualised annual
  isVariable : Defines W E enum costOperationVariable running
  isFixed : Defines W E enum costOperationFixed fixed
  isCost : Defines W E enum costTotal cost

/-- The global expressions of the costs in operate mode, as they are built. -/
structure OperateExpressions [Field V] (W : Where.Env) (E : Expr.Env V) (enum : List String → List String) where
  running : Point → V
  cost : Point → V
  isVariable : Defines W E enum costOperationVariable running
  isCost : Defines W E enum costOperate cost

/-- The purchase of a link between two nodes: the same number of units, prices and length at both of its ends, and no
units at other nodes. -/
structure LinkPurchase [Field V] {W : Where.Env} {E : Expr.Env V} (P : PurchaseModel W E) (length : Point → V)
    (ρ : Point) (a b : Label) (price perDistance distance units : V) : Prop where
  differ : a ≠ b
  nodes : a ∈ W.coords "nodes" ∧ b ∈ W.coords "nodes" ∧ (W.coords "nodes").Nodup
  kind : ∀ l ∈ [a, b], Text W "base_tech" "transmission" (set ρ "nodes" l)
  priced : ∀ l ∈ [a, b], GivenAt W "cost_purchase" (set ρ "nodes" l)
  elsewhere : ∀ l, l ≠ a → l ≠ b → P.units (set ρ "nodes" l) = 0
  isPrice : ∀ l ∈ [a, b], P.perUnit (set ρ "nodes" l) = price
  isPerDistance : ∀ l ∈ [a, b], P.perUnitDistance (set ρ "nodes" l) = perDistance
  isDistance : ∀ l ∈ [a, b], length (set ρ "nodes" l) = distance
  isUnits : ∀ l ∈ [a, b], P.units (set ρ "nodes" l) = units

end BaseMath
end Calliope
