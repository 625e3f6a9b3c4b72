import Verif.Model.BaseCosts
import Verif.Model.BaseLimits
import Verif.Model.MilpMath
import Verif.Model.Variables
import Verif.Model.Postprocessed
import Verif.Model.CheckList
import Verif.Props.MathParse

/-!
# Costs, limits and integer units are what their strings are parsed to

Every condition and expression of `Model/BaseCosts.lean`, `Model/BaseLimits.lean`, `Model/MilpMath.lean`,
`Model/Variables.lean`, `Model/Postprocessed.lean` and `Model/CheckList.lean`, beside the tokens of its string.
-/

namespace Calliope
namespace BaseMath
namespace Strings

open Grid Infix Expr Expand Build

variable {V : Type} [Field V]

local notation "mul" => Tok.op Arith.Op.times
local notation "add" => Tok.op Arith.Op.plus
local notation "sub" => Tok.op Arith.Op.minus
local notation "dvd" => Tok.op Arith.Op.div
local notation "pwr" => Tok.op Arith.Op.pow
local notation "lp" => Tok.lpar
local notation "rp" => Tok.rpar
local notation "AND" => Tok.op Where.Op.and
local notation "OR" => Tok.op Where.Op.or
local notation "NOT" => Tok.op Where.Op.not

/-- `sum(..., over=...)` -/
def fsum (l : List (Tok Arith.Op (Ex V))) (over : List String) : Tok Arith.Op (Ex V) :=
  f (.sum ((arith l).getD (.num 0)) over)
/-- `roll(..., dim=k)` -/
def froll (l : List (Tok Arith.Op (Ex V))) (d : String) (k : Int) : Tok Arith.Op (Ex V) :=
  f (.roll ((arith l).getD (.num 0)) [(d, k)])
def a (l : Where.Leaf) : Tok Where.Op Where.Leaf := .atom l

/-- A side of an equation. -/
def bodySide (right : Bool) : Option (Body V) → Option (Ex V)
  | some (.cmp l _ r) => some (if right then r else l)
  | some (.arith t) => if right then none else some t
  | none => none

/-! `cost_operation_variable` (base.yaml:1097-1116) -/

/-- cost_export OR cost_flow_in OR cost_flow_out OR cost_source_use -/
example : some (costOperationVariable (V := V)).top = cond [i "cost_export", OR, i "cost_flow_in", OR, i
    "cost_flow_out", OR, i "cost_source_use"] := rfl
/-- timestep_weights * ($cost_export + $cost_flow_out + $cost_flow_in) -/
example : bodySide false ((costOperationVariable (V := V)).defn.equations[0]?.map Prod.snd) = arith [c
    "timestep_weights", mul, lp, ref "cost_export", add, ref "cost_flow_out", add, ref "cost_flow_in", rp] := rfl
/-- sum(cost_export * flow_export, over=carriers) -/
example : (((costOperationVariable (V := V)).defn.subs.lookup "cost_export").getD [])[0]?.map Prod.snd = arith [fsum
    [c "cost_export", mul, c "flow_export"] ["carriers"]] := rfl
/-- cost_source_use * source_use -/
example : (((costOperationVariable (V := V)).defn.subs.lookup "cost_flow_in").getD [])[0]?.map Prod.snd = arith [c
    "cost_source_use", mul, c "source_use"] := rfl
/-- base_tech==supply -/
example : (((costOperationVariable (V := V)).defn.subs.lookup "cost_flow_in").getD [])[0]?.map Prod.fst = cond [text
    "base_tech" "supply"] := rfl
/-- sum(cost_flow_in * flow_in, over=carriers) -/
example : (((costOperationVariable (V := V)).defn.subs.lookup "cost_flow_in").getD [])[1]?.map Prod.snd = arith [fsum
    [c "cost_flow_in", mul, c "flow_in"] ["carriers"]] := rfl
/-- NOT base_tech==supply -/
example : (((costOperationVariable (V := V)).defn.subs.lookup "cost_flow_in").getD [])[1]?.map Prod.fst = cond [NOT,
    text "base_tech" "supply"] := rfl
/-- sum(cost_flow_out * flow_out, over=carriers) -/
example : (((costOperationVariable (V := V)).defn.subs.lookup "cost_flow_out").getD [])[0]?.map Prod.snd = arith [fsum
    [c "cost_flow_out", mul, c "flow_out"] ["carriers"]] := rfl

/-! `cost_investment_flow_cap` (base.yaml:1118-1133) -/

/-- flow_cap AND (cost_flow_cap OR cost_flow_cap_per_distance) -/
example : some (costInvestmentFlowCap (V := V)).top = cond [r "flow_cap", AND, lp, i "cost_flow_cap", OR, i
    "cost_flow_cap_per_distance", rp] := rfl
/-- $cost_sum * flow_cap -/
example : bodySide false ((costInvestmentFlowCap (V := V)).defn.equations[0]?.map Prod.snd) = arith [ref "cost_sum",
    mul, c "flow_cap"] := rfl
/-- (cost_flow_cap + cost_flow_cap_per_distance * distance) * 0.5 -/
example : (((costInvestmentFlowCap (V := V)).defn.subs.lookup "cost_sum").getD [])[0]?.map Prod.snd = arith [lp, c
    "cost_flow_cap", add, c "cost_flow_cap_per_distance", mul, c "distance", rp, mul, k (1 / 2)] := rfl
/-- base_tech==transmission -/
example : (((costInvestmentFlowCap (V := V)).defn.subs.lookup "cost_sum").getD [])[0]?.map Prod.fst = cond [text
    "base_tech" "transmission"] := rfl
/-- cost_flow_cap -/
example : (((costInvestmentFlowCap (V := V)).defn.subs.lookup "cost_sum").getD [])[1]?.map Prod.snd = arith [c
    "cost_flow_cap"] := rfl
/-- NOT base_tech==transmission -/
example : (((costInvestmentFlowCap (V := V)).defn.subs.lookup "cost_sum").getD [])[1]?.map Prod.fst = cond [NOT, text
    "base_tech" "transmission"] := rfl

/-! `cost_investment_storage_cap` (base.yaml:1135-1144) -/

/-- cost_storage_cap AND storage_cap -/
example : some (costInvestmentStorageCap (V := V)).top = cond [i "cost_storage_cap", AND, r "storage_cap"] := rfl
/-- cost_storage_cap * storage_cap -/
example : bodySide false ((costInvestmentStorageCap (V := V)).defn.equations[0]?.map Prod.snd) = arith [c
    "cost_storage_cap", mul, c "storage_cap"] := rfl

/-! `cost_investment_source_cap` (base.yaml:1146-1155) -/

/-- cost_source_cap AND source_cap -/
example : some (costInvestmentSourceCap (V := V)).top = cond [i "cost_source_cap", AND, r "source_cap"] := rfl
/-- cost_source_cap * source_cap -/
example : bodySide false ((costInvestmentSourceCap (V := V)).defn.equations[0]?.map Prod.snd) = arith [c
    "cost_source_cap", mul, c "source_cap"] := rfl

/-! `cost_investment_area_use` (base.yaml:1157-1166) -/

/-- cost_area_use AND area_use -/
example : some (costInvestmentAreaUse (V := V)).top = cond [i "cost_area_use", AND, r "area_use"] := rfl
/-- cost_area_use * area_use -/
example : bodySide false ((costInvestmentAreaUse (V := V)).defn.equations[0]?.map Prod.snd) = arith [c
    "cost_area_use", mul, c "area_use"] := rfl

/-! `cost_investment` (base.yaml:1168-1184) -/

/-- cost_investment_flow_cap OR cost_investment_storage_cap OR cost_investment_source_cap OR cost_investment_area_use
-/
example : some (costInvestment (V := V)).top = cond [r "cost_investment_flow_cap", OR, r
    "cost_investment_storage_cap", OR, r "cost_investment_source_cap", OR, r "cost_investment_area_use"] := rfl
/-- sum(cost_investment_flow_cap, over=carriers) + cost_investment_storage_cap + cost_investment_source_cap +
cost_investment_area_use -/
example : bodySide false ((costInvestment (V := V)).defn.equations[0]?.map Prod.snd) = arith [fsum [c
    "cost_investment_flow_cap"] ["carriers"], add, c "cost_investment_storage_cap", add, c
    "cost_investment_source_cap", add, c "cost_investment_area_use"] := rfl

/-! `cost_investment_purchase` (milp.yaml:438-451) -/

/-- cost_purchase AND purchased_units -/
example : some (costInvestmentPurchase (V := V)).top = cond [i "cost_purchase", AND, r "purchased_units"] := rfl
/-- base_tech==transmission -/
example : (costInvestmentPurchase (V := V)).defn.equations[0]?.map Prod.fst = cond [text "base_tech" "transmission"]
    := rfl
/-- (cost_purchase + cost_purchase_per_distance * distance) * purchased_units * 0.5 -/
example : bodySide false ((costInvestmentPurchase (V := V)).defn.equations[0]?.map Prod.snd) = arith [lp, c
    "cost_purchase", add, c "cost_purchase_per_distance", mul, c "distance", rp, mul, c "purchased_units", mul, k (1 /
    2)] := rfl
/-- NOT base_tech==transmission -/
example : (costInvestmentPurchase (V := V)).defn.equations[1]?.map Prod.fst = cond [NOT, text "base_tech"
    "transmission"] := rfl
/-- cost_purchase * purchased_units -/
example : bodySide false ((costInvestmentPurchase (V := V)).defn.equations[1]?.map Prod.snd) = arith [c
    "cost_purchase", mul, c "purchased_units"] := rfl

/-! `cost_investment` (base.yaml:1168-1184, milp.yaml:455-469) -/

/-- cost_investment_flow_cap OR cost_investment_storage_cap OR cost_investment_source_cap OR cost_investment_area_use
OR cost_investment_purchase -/
example : some (costInvestmentMilp (V := V)).top = cond [r "cost_investment_flow_cap", OR, r
    "cost_investment_storage_cap", OR, r "cost_investment_source_cap", OR, r "cost_investment_area_use", OR, r
    "cost_investment_purchase"] := rfl
/-- sum(cost_investment_flow_cap, over=carriers) + cost_investment_storage_cap + cost_investment_source_cap +
cost_investment_area_use + cost_investment_purchase -/
example : bodySide false ((costInvestmentMilp (V := V)).defn.equations[0]?.map Prod.snd) = arith [fsum [c
    "cost_investment_flow_cap"] ["carriers"], add, c "cost_investment_storage_cap", add, c
    "cost_investment_source_cap", add, c "cost_investment_area_use", add, c "cost_investment_purchase"] := rfl

/-! `cost_operation_fixed` (base.yaml:1210-1226) -/

/-- (cost_om_annual AND flow_cap) OR (cost_investment AND cost_om_annual_investment_fraction) -/
example : some (costOperationFixed (V := V)).top = cond [lp, i "cost_om_annual", AND, r "flow_cap", rp, OR, lp, r
    "cost_investment", AND, i "cost_om_annual_investment_fraction", rp] := rfl
/-- $annualisation_weight * ( sum(cost_om_annual * flow_cap, over=carriers) + cost_investment *
cost_om_annual_investment_fraction ) -/
example : bodySide false ((costOperationFixed (V := V)).defn.equations[0]?.map Prod.snd) = arith [ref
    "annualisation_weight", mul, lp, fsum [c "cost_om_annual", mul, c "flow_cap"] ["carriers"], add, c
    "cost_investment", mul, c "cost_om_annual_investment_fraction", rp] := rfl
/-- sum(timestep_resolution * timestep_weights, over=timesteps) / 8760 -/
example : (((costOperationFixed (V := V)).defn.subs.lookup "annualisation_weight").getD [])[0]?.map Prod.snd = arith
    [fsum [c "timestep_resolution", mul, c "timestep_weights"] ["timesteps"], dvd, k 8760] := rfl

/-! `cost` (base.yaml:1229-1241) -/

/-- cost_investment_annualised OR cost_operation_variable OR cost_operation_fixed -/
example : some (costTotal (V := V)).top = cond [r "cost_investment_annualised", OR, r "cost_operation_variable", OR, r
    "cost_operation_fixed"] := rfl
/-- cost_investment_annualised + sum(cost_operation_variable, over=timesteps) + cost_operation_fixed -/
example : bodySide false ((costTotal (V := V)).defn.equations[0]?.map Prod.snd) = arith [c
    "cost_investment_annualised", add, fsum [c "cost_operation_variable"] ["timesteps"], add, c
    "cost_operation_fixed"] := rfl

/-! `cost` (base.yaml:1229-1241, operate.yaml:82-85) -/

/-- cost_operation_variable -/
example : some (costOperate (V := V)).top = cond [r "cost_operation_variable"] := rfl
/-- sum(cost_operation_variable, over=timesteps) -/
example : bodySide false ((costOperate (V := V)).defn.equations[0]?.map Prod.snd) = arith [fsum [c
    "cost_operation_variable"] ["timesteps"]] := rfl

/-! `min_cost_optimisation` (base.yaml:1037-1061) -/

/-- sum( sum(cost, over=[nodes, techs]) * objective_cost_weights, over=costs ) + $unmet_demand -/
example : bodySide false ((minCostOptimisation (V := V)).defn.equations[0]?.map Prod.snd) = arith [fsum [fsum [c
    "cost"] ["nodes", "techs"], mul, c "objective_cost_weights"] ["costs"], add, ref "unmet_demand"] := rfl
/-- sum( sum(unmet_demand - unused_supply, over=[carriers, nodes]) * timestep_weights, over=timesteps ) * bigM -/
example : (((minCostOptimisation (V := V)).defn.subs.lookup "unmet_demand").getD [])[0]?.map Prod.snd = arith [fsum
    [fsum [c "unmet_demand", sub, c "unused_supply"] ["carriers", "nodes"], mul, c "timestep_weights"] ["timesteps"],
    mul, c "bigM"] := rfl

/-! `total_system_cost_max` (spores.yaml:23-45) -/

/-- any(cost, over=[nodes, techs, costs]) -/
example : (totalSystemCostMax (V := V)).defn.equations[0]?.map Prod.fst = cond [a (.anyResult "cost" ["nodes",
    "techs", "costs"])] := rfl
/-- sum( sum(cost, over=[nodes, techs]) * objective_cost_weights, over=costs ) + $unmet_demand <= spores_baseline_cost
* (1 + spores_slack) -/
example : bodySide false ((totalSystemCostMax (V := V)).defn.equations[0]?.map Prod.snd) = arith [fsum [fsum [c
    "cost"] ["nodes", "techs"], mul, c "objective_cost_weights"] ["costs"], add, ref "unmet_demand"] := rfl
/-- sum( sum(cost, over=[nodes, techs]) * objective_cost_weights, over=costs ) + $unmet_demand <= spores_baseline_cost
* (1 + spores_slack) -/
example : bodySide true ((totalSystemCostMax (V := V)).defn.equations[0]?.map Prod.snd) = arith [c
    "spores_baseline_cost", mul, lp, k 1, add, c "spores_slack", rp] := rfl
/-- NOT any(cost, over=[nodes, techs, costs]) -/
example : (totalSystemCostMax (V := V)).defn.equations[1]?.map Prod.fst = cond [NOT, a (.anyResult "cost" ["nodes",
    "techs", "costs"])] := rfl
/-- $unmet_demand <= spores_baseline_cost * (1 + spores_slack) -/
example : bodySide false ((totalSystemCostMax (V := V)).defn.equations[1]?.map Prod.snd) = arith [ref "unmet_demand"]
    := rfl
/-- $unmet_demand <= spores_baseline_cost * (1 + spores_slack) -/
example : bodySide true ((totalSystemCostMax (V := V)).defn.equations[1]?.map Prod.snd) = arith [c
    "spores_baseline_cost", mul, lp, k 1, add, c "spores_slack", rp] := rfl
/-- sum( sum(unmet_demand - unused_supply, over=[carriers, nodes]) * timestep_weights, over=timesteps ) * bigM -/
example : (((totalSystemCostMax (V := V)).defn.subs.lookup "unmet_demand").getD [])[0]?.map Prod.snd = arith [fsum
    [fsum [c "unmet_demand", sub, c "unused_supply"] ["carriers", "nodes"], mul, c "timestep_weights"] ["timesteps"],
    mul, c "bigM"] := rfl

/-! `min_spores` (spores.yaml:48-62) -/

/-- sum(flow_cap * spores_score, over=[nodes, techs, carriers]) + $unmet_demand -/
example : bodySide false ((minSpores (V := V)).defn.equations[0]?.map Prod.snd) = arith [fsum [c "flow_cap", mul, c
    "spores_score"] ["nodes", "techs", "carriers"], add, ref "unmet_demand"] := rfl
/-- sum( sum(unmet_demand - unused_supply, over=[carriers, nodes]) * timestep_weights, over=timesteps ) * bigM -/
example : (((minSpores (V := V)).defn.subs.lookup "unmet_demand").getD [])[0]?.map Prod.snd = arith [fsum [fsum [c
    "unmet_demand", sub, c "unused_supply"] ["carriers", "nodes"], mul, c "timestep_weights"] ["timesteps"], mul, c
    "bigM"] := rfl

/-! `flow_capacity_per_storage_capacity_min` (base.yaml:554-560) -/

/-- storage_cap AND flow_cap_per_storage_cap_min -/
example : some (flowCapacityPerStorageCapacityMin (V := V)).top = cond [r "storage_cap", AND, i
    "flow_cap_per_storage_cap_min"] := rfl
/-- flow_cap >= storage_cap * flow_cap_per_storage_cap_min -/
example : bodySide false ((flowCapacityPerStorageCapacityMin (V := V)).defn.equations[0]?.map Prod.snd) = arith [c
    "flow_cap"] := rfl
/-- flow_cap >= storage_cap * flow_cap_per_storage_cap_min -/
example : bodySide true ((flowCapacityPerStorageCapacityMin (V := V)).defn.equations[0]?.map Prod.snd) = arith [c
    "storage_cap", mul, c "flow_cap_per_storage_cap_min"] := rfl

/-! `flow_capacity_per_storage_capacity_max` (base.yaml:562-568) -/

/-- storage_cap AND flow_cap_per_storage_cap_max -/
example : some (flowCapacityPerStorageCapacityMax (V := V)).top = cond [r "storage_cap", AND, i
    "flow_cap_per_storage_cap_max"] := rfl
/-- flow_cap <= storage_cap * flow_cap_per_storage_cap_max -/
example : bodySide false ((flowCapacityPerStorageCapacityMax (V := V)).defn.equations[0]?.map Prod.snd) = arith [c
    "flow_cap"] := rfl
/-- flow_cap <= storage_cap * flow_cap_per_storage_cap_max -/
example : bodySide true ((flowCapacityPerStorageCapacityMax (V := V)).defn.equations[0]?.map Prod.snd) = arith [c
    "storage_cap", mul, c "flow_cap_per_storage_cap_max"] := rfl

/-! `source_capacity_equals_flow_capacity` (base.yaml:570-576) -/

/-- source_cap AND source_cap_equals_flow_cap==True -/
example : some (sourceCapacityEqualsFlowCapacity (V := V)).top = cond [r "source_cap", AND, true'
    "source_cap_equals_flow_cap"] := rfl
/-- source_cap == flow_cap -/
example : bodySide false ((sourceCapacityEqualsFlowCapacity (V := V)).defn.equations[0]?.map Prod.snd) = arith [c
    "source_cap"] := rfl
/-- source_cap == flow_cap -/
example : bodySide true ((sourceCapacityEqualsFlowCapacity (V := V)).defn.equations[0]?.map Prod.snd) = arith [c
    "flow_cap"] := rfl

/-! `force_zero_area_use` (base.yaml:578-584) -/

/-- area_use AND flow_cap_max==0 -/
example : some (forceZeroAreaUse (V := V)).top = cond [r "area_use", AND, a (.cmp (.input "flow_cap_max") .eq (.num
    0))] := rfl
/-- area_use == 0 -/
example : bodySide false ((forceZeroAreaUse (V := V)).defn.equations[0]?.map Prod.snd) = arith [c "area_use"] := rfl
/-- area_use == 0 -/
example : bodySide true ((forceZeroAreaUse (V := V)).defn.equations[0]?.map Prod.snd) = arith [k 0] := rfl

/-! `area_use_per_flow_capacity` (base.yaml:586-592) -/

/-- area_use AND area_use_per_flow_cap -/
example : some (areaUsePerFlowCapacity (V := V)).top = cond [r "area_use", AND, i "area_use_per_flow_cap"] := rfl
/-- area_use == flow_cap * area_use_per_flow_cap -/
example : bodySide false ((areaUsePerFlowCapacity (V := V)).defn.equations[0]?.map Prod.snd) = arith [c "area_use"] :=
    rfl
/-- area_use == flow_cap * area_use_per_flow_cap -/
example : bodySide true ((areaUsePerFlowCapacity (V := V)).defn.equations[0]?.map Prod.snd) = arith [c "flow_cap",
    mul, c "area_use_per_flow_cap"] := rfl

/-! `area_use_capacity_per_loc` (base.yaml:594-600) -/

/-- area_use AND available_area -/
example : some (areaUseCapacityPerLoc (V := V)).top = cond [r "area_use", AND, i "available_area"] := rfl
/-- sum(area_use, over=techs) <= available_area -/
example : bodySide false ((areaUseCapacityPerLoc (V := V)).defn.equations[0]?.map Prod.snd) = arith [fsum [c
    "area_use"] ["techs"]] := rfl
/-- sum(area_use, over=techs) <= available_area -/
example : bodySide true ((areaUseCapacityPerLoc (V := V)).defn.equations[0]?.map Prod.snd) = arith [c
    "available_area"] := rfl

/-! `flow_capacity_systemwide_max` (base.yaml:602-608) -/

/-- flow_cap_max_systemwide -/
example : some (flowCapacitySystemwideMax (V := V)).top = cond [i "flow_cap_max_systemwide"] := rfl
/-- sum(flow_cap, over=nodes) <= flow_cap_max_systemwide -/
example : bodySide false ((flowCapacitySystemwideMax (V := V)).defn.equations[0]?.map Prod.snd) = arith [fsum [c
    "flow_cap"] ["nodes"]] := rfl
/-- sum(flow_cap, over=nodes) <= flow_cap_max_systemwide -/
example : bodySide true ((flowCapacitySystemwideMax (V := V)).defn.equations[0]?.map Prod.snd) = arith [c
    "flow_cap_max_systemwide"] := rfl

/-! `flow_capacity_systemwide_min` (base.yaml:610-616) -/

/-- flow_cap_min_systemwide -/
example : some (flowCapacitySystemwideMin (V := V)).top = cond [i "flow_cap_min_systemwide"] := rfl
/-- sum(flow_cap, over=nodes) >= flow_cap_min_systemwide -/
example : bodySide false ((flowCapacitySystemwideMin (V := V)).defn.equations[0]?.map Prod.snd) = arith [fsum [c
    "flow_cap"] ["nodes"]] := rfl
/-- sum(flow_cap, over=nodes) >= flow_cap_min_systemwide -/
example : bodySide true ((flowCapacitySystemwideMin (V := V)).defn.equations[0]?.map Prod.snd) = arith [c
    "flow_cap_min_systemwide"] := rfl

/-! `flow_out_max` (base.yaml:627-633) -/

/-- carrier_out -/
example : some (flowOutMax (V := V)).top = cond [i "carrier_out"] := rfl
/-- flow_out <= flow_cap * timestep_resolution * flow_out_parasitic_eff -/
example : bodySide false ((flowOutMax (V := V)).defn.equations[0]?.map Prod.snd) = arith [c "flow_out"] := rfl
/-- flow_out <= flow_cap * timestep_resolution * flow_out_parasitic_eff -/
example : bodySide true ((flowOutMax (V := V)).defn.equations[0]?.map Prod.snd) = arith [c "flow_cap", mul, c
    "timestep_resolution", mul, c "flow_out_parasitic_eff"] := rfl

/-! `flow_out_min` (base.yaml:636-642) -/

/-- flow_out_min_relative -/
example : some (flowOutMin (V := V)).top = cond [i "flow_out_min_relative"] := rfl
/-- flow_out >= flow_cap * timestep_resolution * flow_out_min_relative -/
example : bodySide false ((flowOutMin (V := V)).defn.equations[0]?.map Prod.snd) = arith [c "flow_out"] := rfl
/-- flow_out >= flow_cap * timestep_resolution * flow_out_min_relative -/
example : bodySide true ((flowOutMin (V := V)).defn.equations[0]?.map Prod.snd) = arith [c "flow_cap", mul, c
    "timestep_resolution", mul, c "flow_out_min_relative"] := rfl

/-! `flow_in_max` (base.yaml:644-650) -/

/-- carrier_in -/
example : some (flowInMax (V := V)).top = cond [i "carrier_in"] := rfl
/-- flow_in <= flow_cap * timestep_resolution -/
example : bodySide false ((flowInMax (V := V)).defn.equations[0]?.map Prod.snd) = arith [c "flow_in"] := rfl
/-- flow_in <= flow_cap * timestep_resolution -/
example : bodySide true ((flowInMax (V := V)).defn.equations[0]?.map Prod.snd) = arith [c "flow_cap", mul, c
    "timestep_resolution"] := rfl

/-! `source_max` (base.yaml:652-658) -/

/-- source_cap -/
example : some (sourceMax (V := V)).top = cond [r "source_cap"] := rfl
/-- source_use <= timestep_resolution * source_cap -/
example : bodySide false ((sourceMax (V := V)).defn.equations[0]?.map Prod.snd) = arith [c "source_use"] := rfl
/-- source_use <= timestep_resolution * source_cap -/
example : bodySide true ((sourceMax (V := V)).defn.equations[0]?.map Prod.snd) = arith [c "timestep_resolution", mul,
    c "source_cap"] := rfl

/-! `storage_max` (base.yaml:660-666) -/

/-- storage -/
example : some (storageMax (V := V)).top = cond [r "storage"] := rfl
/-- storage <= storage_cap -/
example : bodySide false ((storageMax (V := V)).defn.equations[0]?.map Prod.snd) = arith [c "storage"] := rfl
/-- storage <= storage_cap -/
example : bodySide true ((storageMax (V := V)).defn.equations[0]?.map Prod.snd) = arith [c "storage_cap"] := rfl

/-! `storage_discharge_depth_limit` (base.yaml:668-674) -/

/-- storage AND storage_discharge_depth -/
example : some (storageDischargeDepthLimit (V := V)).top = cond [r "storage", AND, i "storage_discharge_depth"] := rfl
/-- storage - storage_discharge_depth * storage_cap >= 0 -/
example : bodySide false ((storageDischargeDepthLimit (V := V)).defn.equations[0]?.map Prod.snd) = arith [c "storage",
    sub, c "storage_discharge_depth", mul, c "storage_cap"] := rfl
/-- storage - storage_discharge_depth * storage_cap >= 0 -/
example : bodySide true ((storageDischargeDepthLimit (V := V)).defn.equations[0]?.map Prod.snd) = arith [k 0] := rfl

/-! `balance_demand` (base.yaml:688-706) -/

/-- base_tech==demand -/
example : some (balanceDemand (V := V)).top = cond [text "base_tech" "demand"] := rfl
/-- sink_use_equals -/
example : (balanceDemand (V := V)).defn.equations[0]?.map Prod.fst = cond [i "sink_use_equals"] := rfl
/-- flow_in_inc_eff == sink_use_equals * $sink_scaler -/
example : bodySide false ((balanceDemand (V := V)).defn.equations[0]?.map Prod.snd) = arith [c "flow_in_inc_eff"] :=
    rfl
/-- flow_in_inc_eff == sink_use_equals * $sink_scaler -/
example : bodySide true ((balanceDemand (V := V)).defn.equations[0]?.map Prod.snd) = arith [c "sink_use_equals", mul,
    ref "sink_scaler"] := rfl
/-- NOT sink_use_equals AND sink_use_max -/
example : (balanceDemand (V := V)).defn.equations[1]?.map Prod.fst = cond [NOT, i "sink_use_equals", AND, i
    "sink_use_max"] := rfl
/-- flow_in_inc_eff <= sink_use_max * $sink_scaler -/
example : bodySide false ((balanceDemand (V := V)).defn.equations[1]?.map Prod.snd) = arith [c "flow_in_inc_eff"] :=
    rfl
/-- flow_in_inc_eff <= sink_use_max * $sink_scaler -/
example : bodySide true ((balanceDemand (V := V)).defn.equations[1]?.map Prod.snd) = arith [c "sink_use_max", mul, ref
    "sink_scaler"] := rfl
/-- area_use -/
example : (((balanceDemand (V := V)).defn.subs.lookup "sink_scaler").getD [])[0]?.map Prod.snd = arith [c "area_use"]
    := rfl
/-- sink_unit==per_area -/
example : (((balanceDemand (V := V)).defn.subs.lookup "sink_scaler").getD [])[0]?.map Prod.fst = cond [text
    "sink_unit" "per_area"] := rfl
/-- sum(flow_cap, over=carriers) -/
example : (((balanceDemand (V := V)).defn.subs.lookup "sink_scaler").getD [])[1]?.map Prod.snd = arith [fsum [c
    "flow_cap"] ["carriers"]] := rfl
/-- sink_unit==per_cap -/
example : (((balanceDemand (V := V)).defn.subs.lookup "sink_scaler").getD [])[1]?.map Prod.fst = cond [text
    "sink_unit" "per_cap"] := rfl
/-- 1 -/
example : (((balanceDemand (V := V)).defn.subs.lookup "sink_scaler").getD [])[2]?.map Prod.snd = arith [k 1] := rfl
/-- sink_unit==absolute -/
example : (((balanceDemand (V := V)).defn.subs.lookup "sink_scaler").getD [])[2]?.map Prod.fst = cond [text
    "sink_unit" "absolute"] := rfl

/-! `balance_demand_min_use` (base.yaml:708-717) -/

/-- sink_use_min AND NOT sink_use_equals AND base_tech==demand -/
example : some (balanceDemandMinUse (V := V)).top = cond [i "sink_use_min", AND, NOT, i "sink_use_equals", AND, text
    "base_tech" "demand"] := rfl
/-- flow_in_inc_eff >= sink_use_min * $sink_scaler -/
example : bodySide false ((balanceDemandMinUse (V := V)).defn.equations[0]?.map Prod.snd) = arith [c
    "flow_in_inc_eff"] := rfl
/-- flow_in_inc_eff >= sink_use_min * $sink_scaler -/
example : bodySide true ((balanceDemandMinUse (V := V)).defn.equations[0]?.map Prod.snd) = arith [c "sink_use_min",
    mul, ref "sink_scaler"] := rfl
/-- area_use -/
example : (((balanceDemandMinUse (V := V)).defn.subs.lookup "sink_scaler").getD [])[0]?.map Prod.snd = arith [c
    "area_use"] := rfl
/-- sink_unit==per_area -/
example : (((balanceDemandMinUse (V := V)).defn.subs.lookup "sink_scaler").getD [])[0]?.map Prod.fst = cond [text
    "sink_unit" "per_area"] := rfl
/-- sum(flow_cap, over=carriers) -/
example : (((balanceDemandMinUse (V := V)).defn.subs.lookup "sink_scaler").getD [])[1]?.map Prod.snd = arith [fsum [c
    "flow_cap"] ["carriers"]] := rfl
/-- sink_unit==per_cap -/
example : (((balanceDemandMinUse (V := V)).defn.subs.lookup "sink_scaler").getD [])[1]?.map Prod.fst = cond [text
    "sink_unit" "per_cap"] := rfl
/-- 1 -/
example : (((balanceDemandMinUse (V := V)).defn.subs.lookup "sink_scaler").getD [])[2]?.map Prod.snd = arith [k 1] :=
    rfl
/-- sink_unit==absolute -/
example : (((balanceDemandMinUse (V := V)).defn.subs.lookup "sink_scaler").getD [])[2]?.map Prod.fst = cond [text
    "sink_unit" "absolute"] := rfl

/-! `balance_supply_no_storage` (base.yaml:719-725) -/

/-- base_tech==supply AND NOT include_storage==True -/
example : some (balanceSupplyNoStorage (V := V)).top = cond [text "base_tech" "supply", AND, NOT, true'
    "include_storage"] := rfl
/-- flow_out_inc_eff == source_use * source_eff -/
example : bodySide false ((balanceSupplyNoStorage (V := V)).defn.equations[0]?.map Prod.snd) = arith [c
    "flow_out_inc_eff"] := rfl
/-- flow_out_inc_eff == source_use * source_eff -/
example : bodySide true ((balanceSupplyNoStorage (V := V)).defn.equations[0]?.map Prod.snd) = arith [c "source_use",
    mul, c "source_eff"] := rfl

/-! `source_availability_supply` (base.yaml:753-771) -/

/-- source_use AND (source_use_equals OR source_use_max) -/
example : some (sourceAvailabilitySupply (V := V)).top = cond [r "source_use", AND, lp, i "source_use_equals", OR, i
    "source_use_max", rp] := rfl
/-- source_use_equals -/
example : (sourceAvailabilitySupply (V := V)).defn.equations[0]?.map Prod.fst = cond [i "source_use_equals"] := rfl
/-- source_use == source_use_equals * $source_scaler -/
example : bodySide false ((sourceAvailabilitySupply (V := V)).defn.equations[0]?.map Prod.snd) = arith [c
    "source_use"] := rfl
/-- source_use == source_use_equals * $source_scaler -/
example : bodySide true ((sourceAvailabilitySupply (V := V)).defn.equations[0]?.map Prod.snd) = arith [c
    "source_use_equals", mul, ref "source_scaler"] := rfl
/-- NOT source_use_equals AND source_use_max -/
example : (sourceAvailabilitySupply (V := V)).defn.equations[1]?.map Prod.fst = cond [NOT, i "source_use_equals", AND,
    i "source_use_max"] := rfl
/-- source_use <= source_use_max * $source_scaler -/
example : bodySide false ((sourceAvailabilitySupply (V := V)).defn.equations[1]?.map Prod.snd) = arith [c
    "source_use"] := rfl
/-- source_use <= source_use_max * $source_scaler -/
example : bodySide true ((sourceAvailabilitySupply (V := V)).defn.equations[1]?.map Prod.snd) = arith [c
    "source_use_max", mul, ref "source_scaler"] := rfl
/-- area_use -/
example : (((sourceAvailabilitySupply (V := V)).defn.subs.lookup "source_scaler").getD [])[0]?.map Prod.snd = arith [c
    "area_use"] := rfl
/-- source_unit==per_area -/
example : (((sourceAvailabilitySupply (V := V)).defn.subs.lookup "source_scaler").getD [])[0]?.map Prod.fst = cond
    [text "source_unit" "per_area"] := rfl
/-- sum(flow_cap, over=carriers) -/
example : (((sourceAvailabilitySupply (V := V)).defn.subs.lookup "source_scaler").getD [])[1]?.map Prod.snd = arith
    [fsum [c "flow_cap"] ["carriers"]] := rfl
/-- source_unit==per_cap -/
example : (((sourceAvailabilitySupply (V := V)).defn.subs.lookup "source_scaler").getD [])[1]?.map Prod.fst = cond
    [text "source_unit" "per_cap"] := rfl
/-- 1 -/
example : (((sourceAvailabilitySupply (V := V)).defn.subs.lookup "source_scaler").getD [])[2]?.map Prod.snd = arith [k
    1] := rfl
/-- source_unit==absolute -/
example : (((sourceAvailabilitySupply (V := V)).defn.subs.lookup "source_scaler").getD [])[2]?.map Prod.fst = cond
    [text "source_unit" "absolute"] := rfl

/-! `balance_supply_min_use` (base.yaml:773-781) -/

/-- source_use_min AND NOT source_use_equals AND base_tech==supply -/
example : some (balanceSupplyMinUse (V := V)).top = cond [i "source_use_min", AND, NOT, i "source_use_equals", AND,
    text "base_tech" "supply"] := rfl
/-- source_use >= source_use_min * $source_scaler -/
example : bodySide false ((balanceSupplyMinUse (V := V)).defn.equations[0]?.map Prod.snd) = arith [c "source_use"] :=
    rfl
/-- source_use >= source_use_min * $source_scaler -/
example : bodySide true ((balanceSupplyMinUse (V := V)).defn.equations[0]?.map Prod.snd) = arith [c "source_use_min",
    mul, ref "source_scaler"] := rfl
/-- area_use -/
example : (((balanceSupplyMinUse (V := V)).defn.subs.lookup "source_scaler").getD [])[0]?.map Prod.snd = arith [c
    "area_use"] := rfl
/-- source_unit==per_area -/
example : (((balanceSupplyMinUse (V := V)).defn.subs.lookup "source_scaler").getD [])[0]?.map Prod.fst = cond [text
    "source_unit" "per_area"] := rfl
/-- sum(flow_cap, over=carriers) -/
example : (((balanceSupplyMinUse (V := V)).defn.subs.lookup "source_scaler").getD [])[1]?.map Prod.snd = arith [fsum
    [c "flow_cap"] ["carriers"]] := rfl
/-- source_unit==per_cap -/
example : (((balanceSupplyMinUse (V := V)).defn.subs.lookup "source_scaler").getD [])[1]?.map Prod.fst = cond [text
    "source_unit" "per_cap"] := rfl
/-- 1 -/
example : (((balanceSupplyMinUse (V := V)).defn.subs.lookup "source_scaler").getD [])[2]?.map Prod.snd = arith [k 1]
    := rfl
/-- source_unit==absolute -/
example : (((balanceSupplyMinUse (V := V)).defn.subs.lookup "source_scaler").getD [])[2]?.map Prod.fst = cond [text
    "source_unit" "absolute"] := rfl

/-! `symmetric_transmission` (base.yaml:824-830) -/

/-- base_tech==transmission -/
example : some (symmetricTransmission (V := V)).top = cond [text "base_tech" "transmission"] := rfl
/-- sum(flow_cap, over=carriers) == link_flow_cap -/
example : bodySide false ((symmetricTransmission (V := V)).defn.equations[0]?.map Prod.snd) = arith [fsum [c
    "flow_cap"] ["carriers"]] := rfl
/-- sum(flow_cap, over=carriers) == link_flow_cap -/
example : bodySide true ((symmetricTransmission (V := V)).defn.equations[0]?.map Prod.snd) = arith [c "link_flow_cap"]
    := rfl

/-! `export_balance` (base.yaml:832-839) -/

/-- flow_export -/
example : some (exportBalance (V := V)).top = cond [r "flow_export"] := rfl
/-- flow_out >= flow_export -/
example : bodySide false ((exportBalance (V := V)).defn.equations[0]?.map Prod.snd) = arith [c "flow_out"] := rfl
/-- flow_out >= flow_export -/
example : bodySide true ((exportBalance (V := V)).defn.equations[0]?.map Prod.snd) = arith [c "flow_export"] := rfl

/-! `ramping_up` (base.yaml:841-856) -/

/-- flow_ramping AND NOT timesteps==get_val_at_index(timesteps=0) -/
example : some (rampingUp (V := V)).top = cond [i "flow_ramping", AND, NOT, first] := rfl
/-- $flow - roll($flow, timesteps=1) <= flow_ramping * flow_cap -/
example : bodySide false ((rampingUp (V := V)).defn.equations[0]?.map Prod.snd) = arith [ref "flow", sub, froll [ref
    "flow"] "timesteps" 1] := rfl
/-- $flow - roll($flow, timesteps=1) <= flow_ramping * flow_cap -/
example : bodySide true ((rampingUp (V := V)).defn.equations[0]?.map Prod.snd) = arith [c "flow_ramping", mul, c
    "flow_cap"] := rfl
/-- flow_out / timestep_resolution -/
example : (((rampingUp (V := V)).defn.subs.lookup "flow").getD [])[0]?.map Prod.snd = arith [c "flow_out", dvd, c
    "timestep_resolution"] := rfl
/-- carrier_out AND NOT carrier_in -/
example : (((rampingUp (V := V)).defn.subs.lookup "flow").getD [])[0]?.map Prod.fst = cond [i "carrier_out", AND, NOT,
    i "carrier_in"] := rfl
/-- flow_in / timestep_resolution -/
example : (((rampingUp (V := V)).defn.subs.lookup "flow").getD [])[1]?.map Prod.snd = arith [c "flow_in", dvd, c
    "timestep_resolution"] := rfl
/-- carrier_in AND NOT carrier_out -/
example : (((rampingUp (V := V)).defn.subs.lookup "flow").getD [])[1]?.map Prod.fst = cond [i "carrier_in", AND, NOT,
    i "carrier_out"] := rfl
/-- (flow_out - flow_in) / timestep_resolution -/
example : (((rampingUp (V := V)).defn.subs.lookup "flow").getD [])[2]?.map Prod.snd = arith [lp, c "flow_out", sub, c
    "flow_in", rp, dvd, c "timestep_resolution"] := rfl
/-- carrier_in AND carrier_out -/
example : (((rampingUp (V := V)).defn.subs.lookup "flow").getD [])[2]?.map Prod.fst = cond [i "carrier_in", AND, i
    "carrier_out"] := rfl

/-! `ramping_down` (base.yaml:858-867) -/

/-- flow_ramping AND NOT timesteps==get_val_at_index(timesteps=0) -/
example : some (rampingDown (V := V)).top = cond [i "flow_ramping", AND, NOT, first] := rfl
/-- -1 * flow_ramping * flow_cap <= $flow - roll($flow, timesteps=1) -/
example : bodySide false ((rampingDown (V := V)).defn.equations[0]?.map Prod.snd) = arith [sub, k 1, mul, c
    "flow_ramping", mul, c "flow_cap"] := rfl
/-- -1 * flow_ramping * flow_cap <= $flow - roll($flow, timesteps=1) -/
example : bodySide true ((rampingDown (V := V)).defn.equations[0]?.map Prod.snd) = arith [ref "flow", sub, froll [ref
    "flow"] "timesteps" 1] := rfl
/-- flow_out / timestep_resolution -/
example : (((rampingDown (V := V)).defn.subs.lookup "flow").getD [])[0]?.map Prod.snd = arith [c "flow_out", dvd, c
    "timestep_resolution"] := rfl
/-- carrier_out AND NOT carrier_in -/
example : (((rampingDown (V := V)).defn.subs.lookup "flow").getD [])[0]?.map Prod.fst = cond [i "carrier_out", AND,
    NOT, i "carrier_in"] := rfl
/-- flow_in / timestep_resolution -/
example : (((rampingDown (V := V)).defn.subs.lookup "flow").getD [])[1]?.map Prod.snd = arith [c "flow_in", dvd, c
    "timestep_resolution"] := rfl
/-- carrier_in AND NOT carrier_out -/
example : (((rampingDown (V := V)).defn.subs.lookup "flow").getD [])[1]?.map Prod.fst = cond [i "carrier_in", AND,
    NOT, i "carrier_out"] := rfl
/-- (flow_out - flow_in) / timestep_resolution -/
example : (((rampingDown (V := V)).defn.subs.lookup "flow").getD [])[2]?.map Prod.snd = arith [lp, c "flow_out", sub,
    c "flow_in", rp, dvd, c "timestep_resolution"] := rfl
/-- carrier_in AND carrier_out -/
example : (((rampingDown (V := V)).defn.subs.lookup "flow").getD [])[2]?.map Prod.fst = cond [i "carrier_in", AND, i
    "carrier_out"] := rfl

/-! `unit_commitment_milp` (milp.yaml:215-222) -/

/-- operating_units AND purchased_units -/
example : some (unitCommitmentMilp (V := V)).top = cond [r "operating_units", AND, r "purchased_units"] := rfl
/-- operating_units <= purchased_units -/
example : bodySide false ((unitCommitmentMilp (V := V)).defn.equations[0]?.map Prod.snd) = arith [c "operating_units"]
    := rfl
/-- operating_units <= purchased_units -/
example : bodySide true ((unitCommitmentMilp (V := V)).defn.equations[0]?.map Prod.snd) = arith [c "purchased_units"]
    := rfl

/-! `flow_out_max_milp` (milp.yaml:224-231) -/

/-- flow_out AND operating_units AND flow_cap_per_unit -/
example : some (flowOutMaxMilp (V := V)).top = cond [r "flow_out", AND, r "operating_units", AND, i
    "flow_cap_per_unit"] := rfl
/-- flow_out <= operating_units * timestep_resolution * flow_cap_per_unit * flow_out_parasitic_eff -/
example : bodySide false ((flowOutMaxMilp (V := V)).defn.equations[0]?.map Prod.snd) = arith [c "flow_out"] := rfl
/-- flow_out <= operating_units * timestep_resolution * flow_cap_per_unit * flow_out_parasitic_eff -/
example : bodySide true ((flowOutMaxMilp (V := V)).defn.equations[0]?.map Prod.snd) = arith [c "operating_units", mul,
    c "timestep_resolution", mul, c "flow_cap_per_unit", mul, c "flow_out_parasitic_eff"] := rfl

/-! `flow_in_max_milp` (milp.yaml:233-240) -/

/-- flow_in AND operating_units AND flow_cap_per_unit -/
example : some (flowInMaxMilp (V := V)).top = cond [r "flow_in", AND, r "operating_units", AND, i "flow_cap_per_unit"]
    := rfl
/-- flow_in <= operating_units * timestep_resolution * flow_cap_per_unit -/
example : bodySide false ((flowInMaxMilp (V := V)).defn.equations[0]?.map Prod.snd) = arith [c "flow_in"] := rfl
/-- flow_in <= operating_units * timestep_resolution * flow_cap_per_unit -/
example : bodySide true ((flowInMaxMilp (V := V)).defn.equations[0]?.map Prod.snd) = arith [c "operating_units", mul,
    c "timestep_resolution", mul, c "flow_cap_per_unit"] := rfl

/-! `flow_out_min_milp` (milp.yaml:242-252) -/

/-- flow_out AND operating_units AND flow_out_min_relative -/
example : some (flowOutMinMilp (V := V)).top = cond [r "flow_out", AND, r "operating_units", AND, i
    "flow_out_min_relative"] := rfl
/-- flow_cap_per_unit -/
example : (flowOutMinMilp (V := V)).defn.equations[0]?.map Prod.fst = cond [i "flow_cap_per_unit"] := rfl
/-- flow_out >= operating_units * timestep_resolution * flow_cap_per_unit * flow_out_min_relative -/
example : bodySide false ((flowOutMinMilp (V := V)).defn.equations[0]?.map Prod.snd) = arith [c "flow_out"] := rfl
/-- flow_out >= operating_units * timestep_resolution * flow_cap_per_unit * flow_out_min_relative -/
example : bodySide true ((flowOutMinMilp (V := V)).defn.equations[0]?.map Prod.snd) = arith [c "operating_units", mul,
    c "timestep_resolution", mul, c "flow_cap_per_unit", mul, c "flow_out_min_relative"] := rfl
/-- available_flow_cap -/
example : (flowOutMinMilp (V := V)).defn.equations[1]?.map Prod.fst = cond [r "available_flow_cap"] := rfl
/-- flow_out >= available_flow_cap * timestep_resolution * flow_out_min_relative -/
example : bodySide false ((flowOutMinMilp (V := V)).defn.equations[1]?.map Prod.snd) = arith [c "flow_out"] := rfl
/-- flow_out >= available_flow_cap * timestep_resolution * flow_out_min_relative -/
example : bodySide true ((flowOutMinMilp (V := V)).defn.equations[1]?.map Prod.snd) = arith [c "available_flow_cap",
    mul, c "timestep_resolution", mul, c "flow_out_min_relative"] := rfl

/-! `storage_capacity_units_milp` (milp.yaml:254-260) -/

/-- storage AND purchased_units AND storage_cap_per_unit -/
example : some (storageCapacityUnitsMilp (V := V)).top = cond [r "storage", AND, r "purchased_units", AND, i
    "storage_cap_per_unit"] := rfl
/-- storage_cap == purchased_units * storage_cap_per_unit -/
example : bodySide false ((storageCapacityUnitsMilp (V := V)).defn.equations[0]?.map Prod.snd) = arith [c
    "storage_cap"] := rfl
/-- storage_cap == purchased_units * storage_cap_per_unit -/
example : bodySide true ((storageCapacityUnitsMilp (V := V)).defn.equations[0]?.map Prod.snd) = arith [c
    "purchased_units", mul, c "storage_cap_per_unit"] := rfl

/-! `flow_capacity_units_milp` (milp.yaml:262-268) -/

/-- purchased_units AND flow_cap_per_unit -/
example : some (flowCapacityUnitsMilp (V := V)).top = cond [r "purchased_units", AND, i "flow_cap_per_unit"] := rfl
/-- flow_cap == purchased_units * flow_cap_per_unit -/
example : bodySide false ((flowCapacityUnitsMilp (V := V)).defn.equations[0]?.map Prod.snd) = arith [c "flow_cap"] :=
    rfl
/-- flow_cap == purchased_units * flow_cap_per_unit -/
example : bodySide true ((flowCapacityUnitsMilp (V := V)).defn.equations[0]?.map Prod.snd) = arith [c
    "purchased_units", mul, c "flow_cap_per_unit"] := rfl

/-! `flow_capacity_max_purchase_milp` (milp.yaml:270-280) -/

/-- purchased_units -/
example : some (flowCapacityMaxPurchaseMilp (V := V)).top = cond [r "purchased_units"] := rfl
/-- flow_cap_max -/
example : (flowCapacityMaxPurchaseMilp (V := V)).defn.equations[0]?.map Prod.fst = cond [i "flow_cap_max"] := rfl
/-- flow_cap <= flow_cap_max * purchased_units -/
example : bodySide false ((flowCapacityMaxPurchaseMilp (V := V)).defn.equations[0]?.map Prod.snd) = arith [c
    "flow_cap"] := rfl
/-- flow_cap <= flow_cap_max * purchased_units -/
example : bodySide true ((flowCapacityMaxPurchaseMilp (V := V)).defn.equations[0]?.map Prod.snd) = arith [c
    "flow_cap_max", mul, c "purchased_units"] := rfl
/-- NOT flow_cap_max -/
example : (flowCapacityMaxPurchaseMilp (V := V)).defn.equations[1]?.map Prod.fst = cond [NOT, i "flow_cap_max"] := rfl
/-- flow_cap <= bigM * purchased_units -/
example : bodySide false ((flowCapacityMaxPurchaseMilp (V := V)).defn.equations[1]?.map Prod.snd) = arith [c
    "flow_cap"] := rfl
/-- flow_cap <= bigM * purchased_units -/
example : bodySide true ((flowCapacityMaxPurchaseMilp (V := V)).defn.equations[1]?.map Prod.snd) = arith [c "bigM",
    mul, c "purchased_units"] := rfl

/-! `storage_capacity_max_purchase_milp` (milp.yaml:282-289) -/

/-- purchased_units AND storage_cap_max -/
example : some (storageCapacityMaxPurchaseMilp (V := V)).top = cond [r "purchased_units", AND, i "storage_cap_max"] :=
    rfl
/-- storage_cap <= storage_cap_max * purchased_units -/
example : bodySide false ((storageCapacityMaxPurchaseMilp (V := V)).defn.equations[0]?.map Prod.snd) = arith [c
    "storage_cap"] := rfl
/-- storage_cap <= storage_cap_max * purchased_units -/
example : bodySide true ((storageCapacityMaxPurchaseMilp (V := V)).defn.equations[0]?.map Prod.snd) = arith [c
    "storage_cap_max", mul, c "purchased_units"] := rfl

/-! `unit_capacity_max_systemwide_milp` (milp.yaml:291-299) -/

/-- purchased_units AND purchased_units_max_systemwide -/
example : some (unitCapacityMaxSystemwideMilp (V := V)).top = cond [r "purchased_units", AND, i
    "purchased_units_max_systemwide"] := rfl
/-- sum(purchased_units, over=nodes) <= purchased_units_max_systemwide -/
example : bodySide false ((unitCapacityMaxSystemwideMilp (V := V)).defn.equations[0]?.map Prod.snd) = arith [fsum [c
    "purchased_units"] ["nodes"]] := rfl
/-- sum(purchased_units, over=nodes) <= purchased_units_max_systemwide -/
example : bodySide true ((unitCapacityMaxSystemwideMilp (V := V)).defn.equations[0]?.map Prod.snd) = arith [c
    "purchased_units_max_systemwide"] := rfl

/-! `unit_capacity_min_systemwide_milp` (milp.yaml:301-309) -/

/-- purchased_units AND purchased_units_max_systemwide -/
example : some (unitCapacityMinSystemwideMilp (V := V)).top = cond [r "purchased_units", AND, i
    "purchased_units_max_systemwide"] := rfl
/-- sum(purchased_units, over=nodes) >= purchased_units_min_systemwide -/
example : bodySide false ((unitCapacityMinSystemwideMilp (V := V)).defn.equations[0]?.map Prod.snd) = arith [fsum [c
    "purchased_units"] ["nodes"]] := rfl
/-- sum(purchased_units, over=nodes) >= purchased_units_min_systemwide -/
example : bodySide true ((unitCapacityMinSystemwideMilp (V := V)).defn.equations[0]?.map Prod.snd) = arith [c
    "purchased_units_min_systemwide"] := rfl

/-! `async_flow_in_milp` (milp.yaml:311-318) -/

/-- async_flow_switch -/
example : some (asyncFlowInMilp (V := V)).top = cond [r "async_flow_switch"] := rfl
/-- sum(flow_in, over=carriers) <= (1 - async_flow_switch) * bigM -/
example : bodySide false ((asyncFlowInMilp (V := V)).defn.equations[0]?.map Prod.snd) = arith [fsum [c "flow_in"]
    ["carriers"]] := rfl
/-- sum(flow_in, over=carriers) <= (1 - async_flow_switch) * bigM -/
example : bodySide true ((asyncFlowInMilp (V := V)).defn.equations[0]?.map Prod.snd) = arith [lp, k 1, sub, c
    "async_flow_switch", rp, mul, c "bigM"] := rfl

/-! `async_flow_out_milp` (milp.yaml:320-327) -/

/-- async_flow_switch -/
example : some (asyncFlowOutMilp (V := V)).top = cond [r "async_flow_switch"] := rfl
/-- sum(flow_out, over=carriers) <= async_flow_switch * bigM -/
example : bodySide false ((asyncFlowOutMilp (V := V)).defn.equations[0]?.map Prod.snd) = arith [fsum [c "flow_out"]
    ["carriers"]] := rfl
/-- sum(flow_out, over=carriers) <= async_flow_switch * bigM -/
example : bodySide true ((asyncFlowOutMilp (V := V)).defn.equations[0]?.map Prod.snd) = arith [c "async_flow_switch",
    mul, c "bigM"] := rfl

/-! `available_flow_cap_continuous` (milp.yaml:329-336) -/

/-- available_flow_cap -/
example : some (availableFlowCapContinuous (V := V)).top = cond [r "available_flow_cap"] := rfl
/-- available_flow_cap <= flow_cap -/
example : bodySide false ((availableFlowCapContinuous (V := V)).defn.equations[0]?.map Prod.snd) = arith [c
    "available_flow_cap"] := rfl
/-- available_flow_cap <= flow_cap -/
example : bodySide true ((availableFlowCapContinuous (V := V)).defn.equations[0]?.map Prod.snd) = arith [c "flow_cap"]
    := rfl

/-! `available_flow_cap_binary` (milp.yaml:338-343) -/

/-- available_flow_cap -/
example : some (availableFlowCapBinary (V := V)).top = cond [r "available_flow_cap"] := rfl
/-- available_flow_cap <= flow_cap_max * operating_units -/
example : bodySide false ((availableFlowCapBinary (V := V)).defn.equations[0]?.map Prod.snd) = arith [c
    "available_flow_cap"] := rfl
/-- available_flow_cap <= flow_cap_max * operating_units -/
example : bodySide true ((availableFlowCapBinary (V := V)).defn.equations[0]?.map Prod.snd) = arith [c "flow_cap_max",
    mul, c "operating_units"] := rfl

/-! `available_flow_cap_max_binary_continuous_switch` (milp.yaml:345-352) -/

/-- available_flow_cap -/
example : some (availableFlowCapMaxBinaryContinuousSwitch (V := V)).top = cond [r "available_flow_cap"] := rfl
/-- available_flow_cap >= flow_cap + ((operating_units - purchased_units) * flow_cap_max) -/
example : bodySide false ((availableFlowCapMaxBinaryContinuousSwitch (V := V)).defn.equations[0]?.map Prod.snd) =
    arith [c "available_flow_cap"] := rfl
/-- available_flow_cap >= flow_cap + ((operating_units - purchased_units) * flow_cap_max) -/
example : bodySide true ((availableFlowCapMaxBinaryContinuousSwitch (V := V)).defn.equations[0]?.map Prod.snd) = arith
    [c "flow_cap", add, lp, lp, c "operating_units", sub, c "purchased_units", rp, mul, c "flow_cap_max", rp] := rfl

/-! `flow_capacity_minimum` (milp.yaml:354-365) -/

/-- flow_cap_min -/
example : some (flowCapacityMinimum (V := V)).top = cond [i "flow_cap_min"] := rfl
/-- NOT purchased_units -/
example : (flowCapacityMinimum (V := V)).defn.equations[0]?.map Prod.fst = cond [NOT, r "purchased_units"] := rfl
/-- flow_cap >= flow_cap_min -/
example : bodySide false ((flowCapacityMinimum (V := V)).defn.equations[0]?.map Prod.snd) = arith [c "flow_cap"] :=
    rfl
/-- flow_cap >= flow_cap_min -/
example : bodySide true ((flowCapacityMinimum (V := V)).defn.equations[0]?.map Prod.snd) = arith [c "flow_cap_min"] :=
    rfl
/-- purchased_units -/
example : (flowCapacityMinimum (V := V)).defn.equations[1]?.map Prod.fst = cond [r "purchased_units"] := rfl
/-- flow_cap >= flow_cap_min * purchased_units -/
example : bodySide false ((flowCapacityMinimum (V := V)).defn.equations[1]?.map Prod.snd) = arith [c "flow_cap"] :=
    rfl
/-- flow_cap >= flow_cap_min * purchased_units -/
example : bodySide true ((flowCapacityMinimum (V := V)).defn.equations[1]?.map Prod.snd) = arith [c "flow_cap_min",
    mul, c "purchased_units"] := rfl

/-! `storage_capacity_minimum` (milp.yaml:367-378) -/

/-- storage_cap_min -/
example : some (storageCapacityMinimum (V := V)).top = cond [i "storage_cap_min"] := rfl
/-- NOT purchased_units -/
example : (storageCapacityMinimum (V := V)).defn.equations[0]?.map Prod.fst = cond [NOT, r "purchased_units"] := rfl
/-- storage_cap >= storage_cap_min -/
example : bodySide false ((storageCapacityMinimum (V := V)).defn.equations[0]?.map Prod.snd) = arith [c "storage_cap"]
    := rfl
/-- storage_cap >= storage_cap_min -/
example : bodySide true ((storageCapacityMinimum (V := V)).defn.equations[0]?.map Prod.snd) = arith [c
    "storage_cap_min"] := rfl
/-- purchased_units -/
example : (storageCapacityMinimum (V := V)).defn.equations[1]?.map Prod.fst = cond [r "purchased_units"] := rfl
/-- storage_cap >= storage_cap_min * purchased_units -/
example : bodySide false ((storageCapacityMinimum (V := V)).defn.equations[1]?.map Prod.snd) = arith [c "storage_cap"]
    := rfl
/-- storage_cap >= storage_cap_min * purchased_units -/
example : bodySide true ((storageCapacityMinimum (V := V)).defn.equations[1]?.map Prod.snd) = arith [c
    "storage_cap_min", mul, c "purchased_units"] := rfl

/-! `area_use_minimum` (milp.yaml:380-391) -/

/-- area_use_min -/
example : some (areaUseMinimum (V := V)).top = cond [i "area_use_min"] := rfl
/-- NOT purchased_units -/
example : (areaUseMinimum (V := V)).defn.equations[0]?.map Prod.fst = cond [NOT, r "purchased_units"] := rfl
/-- area_use >= area_use_min -/
example : bodySide false ((areaUseMinimum (V := V)).defn.equations[0]?.map Prod.snd) = arith [c "area_use"] := rfl
/-- area_use >= area_use_min -/
example : bodySide true ((areaUseMinimum (V := V)).defn.equations[0]?.map Prod.snd) = arith [c "area_use_min"] := rfl
/-- purchased_units -/
example : (areaUseMinimum (V := V)).defn.equations[1]?.map Prod.fst = cond [r "purchased_units"] := rfl
/-- area_use >= area_use_min * purchased_units -/
example : bodySide false ((areaUseMinimum (V := V)).defn.equations[1]?.map Prod.snd) = arith [c "area_use"] := rfl
/-- area_use >= area_use_min * purchased_units -/
example : bodySide true ((areaUseMinimum (V := V)).defn.equations[1]?.map Prod.snd) = arith [c "area_use_min", mul, c
    "purchased_units"] := rfl

/-! `source_capacity_minimum` (milp.yaml:393-404) -/

/-- base_tech==supply AND source_cap_min -/
example : some (sourceCapacityMinimum (V := V)).top = cond [text "base_tech" "supply", AND, i "source_cap_min"] := rfl
/-- NOT purchased_units -/
example : (sourceCapacityMinimum (V := V)).defn.equations[0]?.map Prod.fst = cond [NOT, r "purchased_units"] := rfl
/-- source_cap >= source_cap_min -/
example : bodySide false ((sourceCapacityMinimum (V := V)).defn.equations[0]?.map Prod.snd) = arith [c "source_cap"]
    := rfl
/-- source_cap >= source_cap_min -/
example : bodySide true ((sourceCapacityMinimum (V := V)).defn.equations[0]?.map Prod.snd) = arith [c
    "source_cap_min"] := rfl
/-- purchased_units -/
example : (sourceCapacityMinimum (V := V)).defn.equations[1]?.map Prod.fst = cond [r "purchased_units"] := rfl
/-- source_cap >= source_cap_min * purchased_units -/
example : bodySide false ((sourceCapacityMinimum (V := V)).defn.equations[1]?.map Prod.snd) = arith [c "source_cap"]
    := rfl
/-- source_cap >= source_cap_min * purchased_units -/
example : bodySide true ((sourceCapacityMinimum (V := V)).defn.equations[1]?.map Prod.snd) = arith [c
    "source_cap_min", mul, c "purchased_units"] := rfl

/-! `flow_out_max` (base.yaml:627-633, milp.yaml:408-411) -/

/-- carrier_out AND NOT operating_units -/
example : some (flowOutMaxContinuous (V := V)).top = cond [i "carrier_out", AND, NOT, r "operating_units"] := rfl
/-- flow_out <= flow_cap * timestep_resolution * flow_out_parasitic_eff -/
example : bodySide false ((flowOutMaxContinuous (V := V)).defn.equations[0]?.map Prod.snd) = arith [c "flow_out"] :=
    rfl
/-- flow_out <= flow_cap * timestep_resolution * flow_out_parasitic_eff -/
example : bodySide true ((flowOutMaxContinuous (V := V)).defn.equations[0]?.map Prod.snd) = arith [c "flow_cap", mul,
    c "timestep_resolution", mul, c "flow_out_parasitic_eff"] := rfl

/-! `flow_out_min` (base.yaml:636-642, milp.yaml:413-416) -/

/-- flow_out_min_relative AND NOT operating_units -/
example : some (flowOutMinContinuous (V := V)).top = cond [i "flow_out_min_relative", AND, NOT, r "operating_units"]
    := rfl
/-- flow_out >= flow_cap * timestep_resolution * flow_out_min_relative -/
example : bodySide false ((flowOutMinContinuous (V := V)).defn.equations[0]?.map Prod.snd) = arith [c "flow_out"] :=
    rfl
/-- flow_out >= flow_cap * timestep_resolution * flow_out_min_relative -/
example : bodySide true ((flowOutMinContinuous (V := V)).defn.equations[0]?.map Prod.snd) = arith [c "flow_cap", mul,
    c "timestep_resolution", mul, c "flow_out_min_relative"] := rfl

/-! `flow_in_max` (base.yaml:644-650, milp.yaml:418-421) -/

/-- carrier_in AND NOT operating_units -/
example : some (flowInMaxContinuous (V := V)).top = cond [i "carrier_in", AND, NOT, r "operating_units"] := rfl
/-- flow_in <= flow_cap * timestep_resolution -/
example : bodySide false ((flowInMaxContinuous (V := V)).defn.equations[0]?.map Prod.snd) = arith [c "flow_in"] := rfl
/-- flow_in <= flow_cap * timestep_resolution -/
example : bodySide true ((flowInMaxContinuous (V := V)).defn.equations[0]?.map Prod.snd) = arith [c "flow_cap", mul, c
    "timestep_resolution"] := rfl

/-! `flow_capacity_systemwide_min` (base.yaml:610-616, milp.yaml:423-432) -/

/-- flow_cap_min_systemwide -/
example : some (flowCapacitySystemwideMinMilp (V := V)).top = cond [i "flow_cap_min_systemwide"] := rfl
/-- any(purchased_units, over=nodes) -/
example : (flowCapacitySystemwideMinMilp (V := V)).defn.equations[0]?.map Prod.fst = cond [a (.anyResult
    "purchased_units" ["nodes"])] := rfl
/-- sum(flow_cap, over=nodes) >= flow_cap_min_systemwide * sum(purchased_units, over=nodes) -/
example : bodySide false ((flowCapacitySystemwideMinMilp (V := V)).defn.equations[0]?.map Prod.snd) = arith [fsum [c
    "flow_cap"] ["nodes"]] := rfl
/-- sum(flow_cap, over=nodes) >= flow_cap_min_systemwide * sum(purchased_units, over=nodes) -/
example : bodySide true ((flowCapacitySystemwideMinMilp (V := V)).defn.equations[0]?.map Prod.snd) = arith [c
    "flow_cap_min_systemwide", mul, fsum [c "purchased_units"] ["nodes"]] := rfl
/-- NOT any(purchased_units, over=nodes) -/
example : (flowCapacitySystemwideMinMilp (V := V)).defn.equations[1]?.map Prod.fst = cond [NOT, a (.anyResult
    "purchased_units" ["nodes"])] := rfl
/-- sum(flow_cap, over=nodes) >= flow_cap_min_systemwide -/
example : bodySide false ((flowCapacitySystemwideMinMilp (V := V)).defn.equations[1]?.map Prod.snd) = arith [fsum [c
    "flow_cap"] ["nodes"]] := rfl
/-- sum(flow_cap, over=nodes) >= flow_cap_min_systemwide -/
example : bodySide true ((flowCapacitySystemwideMinMilp (V := V)).defn.equations[1]?.map Prod.snd) = arith [c
    "flow_cap_min_systemwide"] := rfl

/-! `capacity_factor` (base.yaml:1247-1256) -/

/-- flow_out AND flow_cap>0 -/
example : some (capacityFactor (V := V)).top = cond [r "flow_out", AND, a (.cmp (.result "flow_cap") .gt (.num 0))] :=
    rfl
/-- flow_out / (flow_cap * timestep_resolution) -/
example : bodySide false ((capacityFactor (V := V)).defn.equations[0]?.map Prod.snd) = arith [c "flow_out", dvd, lp, c
    "flow_cap", mul, c "timestep_resolution", rp] := rfl

/-! `systemwide_capacity_factor` (base.yaml:1258-1270) -/

/-- flow_out AND flow_cap>0 -/
example : some (systemwideCapacityFactor (V := V)).top = cond [r "flow_out", AND, a (.cmp (.result "flow_cap") .gt
    (.num 0))] := rfl
/-- sum(flow_out * timestep_weights, over=[nodes, timesteps]) / (sum(flow_cap, over=nodes) * sum(timestep_resolution *
timestep_weights, over=timesteps)) -/
example : bodySide false ((systemwideCapacityFactor (V := V)).defn.equations[0]?.map Prod.snd) = arith [fsum [c
    "flow_out", mul, c "timestep_weights"] ["nodes", "timesteps"], dvd, lp, fsum [c "flow_cap"] ["nodes"], mul, fsum
    [c "timestep_resolution", mul, c "timestep_weights"] ["timesteps"], rp] := rfl

/-! `systemwide_levelised_cost` (base.yaml:1283-1293) -/

/-- total_generation>0 AND any(cost, over=nodes) -/
example : some (systemwideLevelisedCost (V := V)).top = cond [a (.cmp (.result "total_generation") .gt (.num 0)), AND,
    a (.anyResult "cost" ["nodes"])] := rfl
/-- sum(cost, over=nodes) / total_generation -/
example : bodySide false ((systemwideLevelisedCost (V := V)).defn.equations[0]?.map Prod.snd) = arith [fsum [c "cost"]
    ["nodes"], dvd, c "total_generation"] := rfl

/-! `total_levelised_cost` (base.yaml:1295-1305) -/

/-- sum(total_generation, over=techs)>0 -/
example : some (totalLevelisedCost (V := V)).top = cond [a (.cmp (.total "total_generation" ["techs"]) .gt (.num 0))]
    := rfl
/-- sum(cost, over=[nodes, techs]) / sum(total_generation, over=techs) -/
example : bodySide false ((totalLevelisedCost (V := V)).defn.equations[0]?.map Prod.snd) = arith [fsum [c "cost"]
    ["nodes", "techs"], dvd, fsum [c "total_generation"] ["techs"]] := rfl

/-! `unmet_sum` (base.yaml:1307-1319) -/

/-- config.ensure_feasibility == True -/
example : some (unmetSum (V := V)).top = cond [a (.cmp (.config "ensure_feasibility") .eq (.bool true))] := rfl
/-- unmet_demand + unused_supply -/
example : bodySide false ((unmetSum (V := V)).defn.equations[0]?.map Prod.snd) = arith [c "unmet_demand", add, c
    "unused_supply"] := rfl

/-! `curtailment` (base.yaml:1321-1333) -/

/-- base_tech==supply AND source_use_max>0 AND NOT source_use_max==inf AND source_cap>0 -/
example : some (curtailment (V := V)).top = cond [text "base_tech" "supply", AND, a (.cmp (.input "source_use_max")
    .gt (.num 0)), AND, NOT, a (.cmp (.input "source_use_max") .eq (.inf)), AND, a (.cmp (.result "source_cap") .gt
    (.num 0))] := rfl
/-- 1 - (source_use / (source_use_max * $source_scaler)) -/
example : bodySide false ((curtailment (V := V)).defn.equations[0]?.map Prod.snd) = arith [k 1, sub, lp, c
    "source_use", dvd, lp, c "source_use_max", mul, ref "source_scaler", rp, rp] := rfl
/-- area_use -/
example : (((curtailment (V := V)).defn.subs.lookup "source_scaler").getD [])[0]?.map Prod.snd = arith [c "area_use"]
    := rfl
/-- source_unit==per_area -/
example : (((curtailment (V := V)).defn.subs.lookup "source_scaler").getD [])[0]?.map Prod.fst = cond [text
    "source_unit" "per_area"] := rfl
/-- sum(flow_cap, over=carriers) -/
example : (((curtailment (V := V)).defn.subs.lookup "source_scaler").getD [])[1]?.map Prod.snd = arith [fsum [c
    "flow_cap"] ["carriers"]] := rfl
/-- source_unit==per_cap -/
example : (((curtailment (V := V)).defn.subs.lookup "source_scaler").getD [])[1]?.map Prod.fst = cond [text
    "source_unit" "per_cap"] := rfl
/-- 1 -/
example : (((curtailment (V := V)).defn.subs.lookup "source_scaler").getD [])[2]?.map Prod.snd = arith [k 1] := rfl
/-- source_unit==absolute -/
example : (((curtailment (V := V)).defn.subs.lookup "source_scaler").getD [])[2]?.map Prod.fst = cond [text
    "source_unit" "absolute"] := rfl

/-! `total_curtailment` (base.yaml:1335-1348) -/

/-- base_tech==supply AND source_use_max AND source_cap>0 -/
example : some (totalCurtailment (V := V)).top = cond [text "base_tech" "supply", AND, i "source_use_max", AND, a
    (.cmp (.result "source_cap") .gt (.num 0))] := rfl
/-- 1 - (sum(source_use, over=timesteps) / sum(source_use_max * $source_scaler, over=timesteps)) -/
example : bodySide false ((totalCurtailment (V := V)).defn.equations[0]?.map Prod.snd) = arith [k 1, sub, lp, fsum [c
    "source_use"] ["timesteps"], dvd, fsum [c "source_use_max", mul, ref "source_scaler"] ["timesteps"], rp] := rfl
/-- area_use -/
example : (((totalCurtailment (V := V)).defn.subs.lookup "source_scaler").getD [])[0]?.map Prod.snd = arith [c
    "area_use"] := rfl
/-- source_unit==per_area -/
example : (((totalCurtailment (V := V)).defn.subs.lookup "source_scaler").getD [])[0]?.map Prod.fst = cond [text
    "source_unit" "per_area"] := rfl
/-- sum(flow_cap, over=carriers) -/
example : (((totalCurtailment (V := V)).defn.subs.lookup "source_scaler").getD [])[1]?.map Prod.snd = arith [fsum [c
    "flow_cap"] ["carriers"]] := rfl
/-- source_unit==per_cap -/
example : (((totalCurtailment (V := V)).defn.subs.lookup "source_scaler").getD [])[1]?.map Prod.fst = cond [text
    "source_unit" "per_cap"] := rfl
/-- 1 -/
example : (((totalCurtailment (V := V)).defn.subs.lookup "source_scaler").getD [])[2]?.map Prod.snd = arith [k 1] :=
    rfl
/-- source_unit==absolute -/
example : (((totalCurtailment (V := V)).defn.subs.lookup "source_scaler").getD [])[2]?.map Prod.fst = cond [text
    "source_unit" "absolute"] := rfl

/-! `must_have_base` (base.yaml:1351-1354) -/

/-- NOT base_tech -/
example : some mustHaveBase.cond = cond [NOT, i "base_tech"] := rfl

/-! `distance_only_for_transmission` (base.yaml:1356-1359) -/

/-- NOT base_tech==transmission AND (distance or flow_in_eff_per_distance or flow_out_eff_per_distance or
cost_flow_cap_per_distance) -/
example : some distanceOnlyForTransmission.cond = cond [NOT, text "base_tech" "transmission", AND, lp, i "distance",
    OR, i "flow_in_eff_per_distance", OR, i "flow_out_eff_per_distance", OR, i "cost_flow_cap_per_distance", rp] :=
    rfl

/-! `unbounded_flow_cap_cost` (base.yaml:1361-1364) -/

/-- cost_flow_cap<0 AND NOT flow_cap_max -/
example : some unboundedFlowCapCost.cond = cond [a (.cmp (.input "cost_flow_cap") .lt (.num 0)), AND, NOT, i
    "flow_cap_max"] := rfl

/-! `unbounded_storage_cap_cost` (base.yaml:1366-1369) -/

/-- cost_storage_cap<0 AND NOT storage_cap_max -/
example : some unboundedStorageCapCost.cond = cond [a (.cmp (.input "cost_storage_cap") .lt (.num 0)), AND, NOT, i
    "storage_cap_max"] := rfl

/-! `unbounded_area_use_cost` (base.yaml:1371-1374) -/

/-- cost_area_use<0 AND NOT area_use_max -/
example : some unboundedAreaUseCost.cond = cond [a (.cmp (.input "cost_area_use") .lt (.num 0)), AND, NOT, i
    "area_use_max"] := rfl

/-! `unbounded_source_use_cost` (base.yaml:1376-1379) -/

/-- cost_source_cap<0 AND NOT source_cap_max -/
example : some unboundedSourceUseCost.cond = cond [a (.cmp (.input "cost_source_cap") .lt (.num 0)), AND, NOT, i
    "source_cap_max"] := rfl

/-! `finite_source_use` (base.yaml:1381-1384) -/

/-- source_use_equals==inf or sink_use_equals==inf -/
example : some finiteSourceUse.cond = cond [a (.cmp (.input "source_use_equals") .eq (.inf)), OR, a (.cmp (.input
    "sink_use_equals") .eq (.inf))] := rfl

/-! `all_or_nothing_lat_lon` (base.yaml:1386-1389) -/

/-- (any(latitude, over=nodes) or any(longitude, over=nodes)) AND NOT (latitude or longitude) -/
example : some allOrNothingLatLon.cond = cond [lp, a (.anyInput "latitude" ["nodes"]), OR, a (.anyInput "longitude"
    ["nodes"]), rp, AND, NOT, lp, i "latitude", OR, i "longitude", rp] := rfl

/-! `export_only_for_outflows` (base.yaml:1391-1394) -/

/-- carrier_export AND NOT any(carrier_out, over=nodes) -/
example : some exportOnlyForOutflows.cond = cond [i "carrier_export", AND, NOT, a (.anyInput "carrier_out" ["nodes"])]
    := rfl

/-! `storage_initial_max` (base.yaml:1396-1399) -/

/-- storage_initial AND (storage_initial<0 OR storage_initial>1) -/
example : some storageInitialMax.cond = cond [i "storage_initial", AND, lp, a (.cmp (.input "storage_initial") .lt
    (.num 0)), OR, a (.cmp (.input "storage_initial") .gt (.num 1)), rp] := rfl

/-! `flow_in_for_supply_tech` (base.yaml:1401-1404) -/

/-- base_tech==supply AND cost_flow_in -/
example : some flowInForSupplyTech.cond = cond [text "base_tech" "supply", AND, i "cost_flow_in"] := rfl

/-! `flow_out_for_demand_tech` (base.yaml:1406-1409) -/

/-- base_tech==demand AND cost_flow_out -/
example : some flowOutForDemandTech.cond = cond [text "base_tech" "demand", AND, i "cost_flow_out"] := rfl

/-! `no_storage_discharge_depth_when_clustering` (base.yaml:1411-1415) -/

/-- storage_discharge_depth AND lookup_cluster_last_timestep -/
example : some noStorageDischargeDepthWhenClustering.cond = cond [i "storage_discharge_depth", AND, i
    "lookup_cluster_last_timestep"] := rfl

/-! `cyclic_storage_needs_inter_cluster` (base.yaml:1417-1421) -/

/-- cyclic_storage AND lookup_cluster_last_timestep -/
example : some cyclicStorageNeedsInterCluster.cond = cond [i "cyclic_storage", AND, i "lookup_cluster_last_timestep"]
    := rfl

/-! `distance_only_for_transmission_milp` (milp.yaml:472-475) -/

/-- not base_tech==transmission and cost_purchase_per_distance -/
example : some distanceOnlyForTransmissionMilp.cond = cond [NOT, text "base_tech" "transmission", AND, i
    "cost_purchase_per_distance"] := rfl

/-! `conflicting_flow_caps` (milp.yaml:477-480) -/

/-- (flow_cap_max OR flow_cap_min) AND flow_cap_per_unit -/
example : some conflictingFlowCaps.cond = cond [lp, i "flow_cap_max", OR, i "flow_cap_min", rp, AND, i
    "flow_cap_per_unit"] := rfl

/-! `unit_commitment_only_for_units` (milp.yaml:482-485) -/

/-- integer_dispatch==True AND NOT cap_method==integer -/
example : some unitCommitmentOnlyForUnits.cond = cond [true' "integer_dispatch", AND, NOT, text "cap_method"
    "integer"] := rfl

/-! `conflicting_storage_caps` (milp.yaml:487-490) -/

/-- (storage_cap_max OR storage_cap_min) AND storage_cap_per_unit -/
example : some conflictingStorageCaps.cond = cond [lp, i "storage_cap_max", OR, i "storage_cap_min", rp, AND, i
    "storage_cap_per_unit"] := rfl

/-! `operate_mode_cyclic_storage` (operate.yaml:88-93) -/

/-- cyclic_storage==True AND (base_tech==storage OR include_storage==True) -/
example : some operateModeCyclicStorage.cond = cond [true' "cyclic_storage", AND, lp, text "base_tech" "storage", OR,
    true' "include_storage", rp] := rfl

/-! `link_flow_cap` (base.yaml:881-891) -/

/-- base_tech==transmission -/
example : some (linkFlowCapVar (V := V)).top = cond [text "base_tech" "transmission"] := rfl

/-! `flow_out` (base.yaml:893-905) -/

/-- carrier_out -/
example : some (flowOutVar (V := V)).top = cond [i "carrier_out"] := rfl

/-! `flow_in` (base.yaml:907-919) -/

/-- carrier_in -/
example : some (flowInVar (V := V)).top = cond [i "carrier_in"] := rfl

/-! `flow_export` (base.yaml:921-931) -/

/-- carrier_export -/
example : some (flowExportVar (V := V)).top = cond [i "carrier_export"] := rfl

/-! `area_use` (base.yaml:933-944) -/

/-- (area_use_min OR area_use_max OR area_use_per_flow_cap OR sink_unit==per_area OR source_unit==per_area) -/
example : some (areaUseVar (V := V)).top = cond [lp, i "area_use_min", OR, i "area_use_max", OR, i
    "area_use_per_flow_cap", OR, text "sink_unit" "per_area", OR, text "source_unit" "per_area", rp] := rfl

/-! `source_use` (base.yaml:946-956) -/

/-- base_tech==supply -/
example : some (sourceUseVar (V := V)).top = cond [text "base_tech" "supply"] := rfl

/-! `source_cap` (base.yaml:958-969) -/

/-- base_tech==supply -/
example : some (sourceCapVar (V := V)).top = cond [text "base_tech" "supply"] := rfl

/-! `storage_cap` (base.yaml:972-985) -/

/-- include_storage==True OR base_tech==storage -/
example : some (storageCapVar (V := V)).top = cond [true' "include_storage", OR, text "base_tech" "storage"] := rfl

/-! `storage` (base.yaml:988-998) -/

/-- include_storage==True OR base_tech==storage -/
example : some (storageVar (V := V)).top = cond [true' "include_storage", OR, text "base_tech" "storage"] := rfl

/-! `unmet_demand` (base.yaml:1000-1014) -/

/-- config.ensure_feasibility==True -/
example : some (unmetDemandVar (V := V)).top = cond [a (.cmp (.config "ensure_feasibility") .eq (.bool true))] := rfl

/-! `unused_supply` (base.yaml:1016-1033) -/

/-- config.ensure_feasibility==True -/
example : some (unusedSupplyVar (V := V)).top = cond [a (.cmp (.config "ensure_feasibility") .eq (.bool true))] := rfl

/-! `purchased_units` (milp.yaml:106-129) -/

/-- cap_method==integer -/
example : some (purchasedUnitsVar (V := V)).top = cond [text "cap_method" "integer"] := rfl

/-! `operating_units` (milp.yaml:131-143) -/

/-- integer_dispatch==True AND cap_method==integer -/
example : some (operatingUnitsVar (V := V)).top = cond [true' "integer_dispatch", AND, text "cap_method" "integer"] :=
    rfl

/-! `async_flow_switch` (milp.yaml:145-159) -/

/-- force_async_flow==True -/
example : some (asyncFlowSwitchVar (V := V)).top = cond [true' "force_async_flow"] := rfl

/-! `available_flow_cap` (milp.yaml:161-176) -/

/-- integer_dispatch==True AND flow_cap_max AND NOT flow_cap_per_unit -/
example : some (availableFlowCapVar (V := V)).top = cond [true' "integer_dispatch", AND, i "flow_cap_max", AND, NOT, i
    "flow_cap_per_unit"] := rfl

/-! `area_use` (base.yaml:933-944, milp.yaml:187-193) -/

/-- (area_use_min OR area_use_max OR area_use_per_flow_cap OR sink_unit==per_area OR source_unit==per_area) -/
example : some (areaUseMilpVar (V := V)).top = cond [lp, i "area_use_min", OR, i "area_use_max", OR, i
    "area_use_per_flow_cap", OR, text "sink_unit" "per_area", OR, text "source_unit" "per_area", rp] := rfl

/-! `source_cap` (base.yaml:958-969, milp.yaml:195-201) -/

/-- base_tech==supply -/
example : some (sourceCapMilpVar (V := V)).top = cond [text "base_tech" "supply"] := rfl

/-! `storage_cap` (base.yaml:972-985, milp.yaml:203-208) -/

/-- include_storage==True OR base_tech==storage -/
example : some (storageCapMilpVar (V := V)).top = cond [true' "include_storage", OR, text "base_tech" "storage"] :=
    rfl

/-! `storage` (base.yaml:988-998, storage_inter_cluster.yaml:116-124) -/

/-- include_storage==True OR base_tech==storage -/
example : some (storageIntraVar (V := V)).top = cond [true' "include_storage", OR, text "base_tech" "storage"] := rfl

/-! `storage_inter_cluster` (storage_inter_cluster.yaml:126-137) -/

/-- include_storage==True OR base_tech==storage -/
example : some (storageInterClusterVar (V := V)).top = cond [true' "include_storage", OR, text "base_tech" "storage"]
    := rfl

/-! `storage_intra_cluster_max` (storage_inter_cluster.yaml:139-149) -/

/-- include_storage==True OR base_tech==storage -/
example : some (storageIntraClusterMaxVar (V := V)).top = cond [true' "include_storage", OR, text "base_tech"
    "storage"] := rfl

/-! `storage_intra_cluster_min` (storage_inter_cluster.yaml:151-161) -/

/-- include_storage==True OR base_tech==storage -/
example : some (storageIntraClusterMinVar (V := V)).top = cond [true' "include_storage", OR, text "base_tech"
    "storage"] := rfl

end Strings
end BaseMath
end Calliope
