import Verif.Model.InterCluster

/-!
# Costs and objectives

Source: `/repo/src/calliope/math/base.yaml`, `/repo/src/calliope/math/milp.yaml`, `/repo/src/calliope/math/spores.yaml`,
`/repo/src/calliope/math/operate.yaml`, each component as the parsed form of its strings.  A definition of another math
file replaces the parts of the base definition that it gives (`Model/Imports.lean`).

An objective is evaluated as an expression without dimensions
(`/repo/src/calliope/backend/pyomo_backend_model.py:245-275`).

The forms are checked against the tokens of the strings in `Props/MathStrings.lean`.
-/

namespace Calliope
namespace BaseMath

open Grid Infix Expr Expand Build

variable {V : Type} [Field V]

/-- `cost_operation_variable` (base.yaml:1097-1116). -/
def costOperationVariable : Component V where
  foreach := ["nodes", "techs", "costs", "timesteps"]
  top := (.chain (given "cost_export") (.more .or (given "cost_flow_in") (.more .or (given "cost_flow_out") (.one .or
    (given "cost_source_use")))))
  defn := {
    name := "cost_operation_variable"
    equations := [
      (always, .arith (bin (.comp "timestep_weights") .times (bin3 (.sub "cost_export") .plus (.sub "cost_flow_out")
        .plus (.sub "cost_flow_in"))))]
    subs := [
      ("cost_export", [
        (always, .sum (bin (.comp "cost_export") .times (.comp "flow_export")) ["carriers"])]),
      ("cost_flow_in", [
        ((isText "base_tech" "supply"), bin (.comp "cost_source_use") .times (.comp "source_use")),
        ((no (isText "base_tech" "supply")), .sum (bin (.comp "cost_flow_in") .times (.comp "flow_in")) ["carriers"])]),
      ("cost_flow_out", [
        (always, .sum (bin (.comp "cost_flow_out") .times (.comp "flow_out")) ["carriers"])])]
    slices := [] }

/-- `cost_investment_flow_cap` (base.yaml:1118-1133). -/
def costInvestmentFlowCap : Component V where
  foreach := ["nodes", "techs", "carriers", "costs"]
  top := (both (built "flow_cap") (either (given "cost_flow_cap") (given "cost_flow_cap_per_distance")))
  defn := {
    name := "cost_investment_flow_cap"
    equations := [
      (always, .arith (bin (.sub "cost_sum") .times (.comp "flow_cap")))]
    subs := [
      ("cost_sum", [
        ((isText "base_tech" "transmission"), bin (bin (.comp "cost_flow_cap") .plus (bin (.comp
          "cost_flow_cap_per_distance") .times (.comp "distance"))) .times (.num (1 / 2))),
        ((no (isText "base_tech" "transmission")), .comp "cost_flow_cap")])]
    slices := [] }

/-- `cost_investment_storage_cap` (base.yaml:1135-1144). -/
def costInvestmentStorageCap : Component V :=
  single "cost_investment_storage_cap" ["nodes", "techs", "costs"] (both (given "cost_storage_cap") (built
    "storage_cap"))
    (.arith (bin (.comp "cost_storage_cap") .times (.comp "storage_cap")))

/-- `cost_investment_source_cap` (base.yaml:1146-1155). -/
def costInvestmentSourceCap : Component V :=
  single "cost_investment_source_cap" ["nodes", "techs", "costs"] (both (given "cost_source_cap") (built
    "source_cap"))
    (.arith (bin (.comp "cost_source_cap") .times (.comp "source_cap")))

/-- `cost_investment_area_use` (base.yaml:1157-1166). -/
def costInvestmentAreaUse : Component V :=
  single "cost_investment_area_use" ["nodes", "techs", "costs"] (both (given "cost_area_use") (built "area_use"))
    (.arith (bin (.comp "cost_area_use") .times (.comp "area_use")))

/-- `cost_investment` (base.yaml:1168-1184). -/
def costInvestment : Component V :=
  single "cost_investment" ["nodes", "techs", "costs"] (.chain (built "cost_investment_flow_cap") (.more .or (built
    "cost_investment_storage_cap") (.more .or (built "cost_investment_source_cap") (.one .or (built
    "cost_investment_area_use")))))
    (.arith (.chain (.sum (.comp "cost_investment_flow_cap") ["carriers"]) (.more .plus (.comp
      "cost_investment_storage_cap") (.more .plus (.comp "cost_investment_source_cap") (.one .plus (.comp
      "cost_investment_area_use"))))))

/-- `cost_investment_purchase` (milp.yaml:438-451). -/
def costInvestmentPurchase : Component V where
  foreach := ["nodes", "techs", "costs"]
  top := (both (given "cost_purchase") (built "purchased_units"))
  defn := {
    name := "cost_investment_purchase"
    equations := [
      ((isText "base_tech" "transmission"), .arith (bin3 (bin (.comp "cost_purchase") .plus (bin (.comp
        "cost_purchase_per_distance") .times (.comp "distance"))) .times (.comp "purchased_units") .times (.num (1 /
        2)))),
      ((no (isText "base_tech" "transmission")), .arith (bin (.comp "cost_purchase") .times (.comp
        "purchased_units")))]
    subs := []
    slices := [] }

/-- `cost_investment` (base.yaml:1168-1184, milp.yaml:455-469). -/
def costInvestmentMilp : Component V :=
  single "cost_investment" ["nodes", "techs", "costs"] (.chain (built "cost_investment_flow_cap") (.more .or (built
    "cost_investment_storage_cap") (.more .or (built "cost_investment_source_cap") (.more .or (built
    "cost_investment_area_use") (.one .or (built "cost_investment_purchase"))))))
    (.arith (.chain (.sum (.comp "cost_investment_flow_cap") ["carriers"]) (.more .plus (.comp
      "cost_investment_storage_cap") (.more .plus (.comp "cost_investment_source_cap") (.more .plus (.comp
      "cost_investment_area_use") (.one .plus (.comp "cost_investment_purchase")))))))

/-- `cost_operation_fixed` (base.yaml:1210-1226). -/
def costOperationFixed : Component V where
  foreach := ["nodes", "techs", "costs"]
  top := (either (both (given "cost_om_annual") (built "flow_cap")) (both (built "cost_investment") (given
    "cost_om_annual_investment_fraction")))
  defn := {
    name := "cost_operation_fixed"
    equations := [
      (always, .arith (bin (.sub "annualisation_weight") .times (bin (.sum (bin (.comp "cost_om_annual") .times (.comp
        "flow_cap")) ["carriers"]) .plus (bin (.comp "cost_investment") .times (.comp
        "cost_om_annual_investment_fraction")))))]
    subs := [
      ("annualisation_weight", [
        (always, bin (.sum (bin (.comp "timestep_resolution") .times (.comp "timestep_weights")) ["timesteps"]) .div
          (.num 8760))])]
    slices := [] }

/-- `cost` (base.yaml:1229-1241). -/
def costTotal : Component V :=
  single "cost" ["nodes", "techs", "costs"] (.chain (built "cost_investment_annualised") (.more .or (built
    "cost_operation_variable") (.one .or (built "cost_operation_fixed"))))
    (.arith (bin3 (.comp "cost_investment_annualised") .plus (.sum (.comp "cost_operation_variable") ["timesteps"])
      .plus (.comp "cost_operation_fixed")))

/-- `cost` (base.yaml:1229-1241, operate.yaml:82-85). -/
def costOperate : Component V :=
  single "cost" ["nodes", "techs", "costs"] (built "cost_operation_variable")
    (.arith (.sum (.comp "cost_operation_variable") ["timesteps"]))

/-- `min_cost_optimisation` (base.yaml:1037-1061). -/
def minCostOptimisation : Component V where
  foreach := []
  top := always
  defn := {
    name := "min_cost_optimisation"
    equations := [
      (always, .arith (bin (.sum (bin (.sum (.comp "cost") ["nodes", "techs"]) .times (.comp
        "objective_cost_weights")) ["costs"]) .plus (.sub "unmet_demand")))]
    subs := [
      ("unmet_demand", [
        (always, bin (.sum (bin (.sum (bin (.comp "unmet_demand") .minus (.comp "unused_supply")) ["carriers",
          "nodes"]) .times (.comp "timestep_weights")) ["timesteps"]) .times (.comp "bigM"))])]
    slices := [] }

/-- `total_system_cost_max` (spores.yaml:23-45). -/
def totalSystemCostMax : Component V where
  foreach := []
  top := always
  defn := {
    name := "total_system_cost_max"
    equations := [
      ((.atom (.anyResult "cost" ["nodes", "techs", "costs"])), .cmp (bin (.sum (bin (.sum (.comp "cost") ["nodes",
        "techs"]) .times (.comp "objective_cost_weights")) ["costs"]) .plus (.sub "unmet_demand")) "<=" (bin (.comp
        "spores_baseline_cost") .times (bin (.num 1) .plus (.comp "spores_slack")))),
      ((no (.atom (.anyResult "cost" ["nodes", "techs", "costs"]))), .cmp (.sub "unmet_demand") "<=" (bin (.comp
        "spores_baseline_cost") .times (bin (.num 1) .plus (.comp "spores_slack"))))]
    subs := [
      ("unmet_demand", [
        (always, bin (.sum (bin (.sum (bin (.comp "unmet_demand") .minus (.comp "unused_supply")) ["carriers",
          "nodes"]) .times (.comp "timestep_weights")) ["timesteps"]) .times (.comp "bigM"))])]
    slices := [] }

/-- `min_spores` (spores.yaml:48-62). -/
def minSpores : Component V where
  foreach := []
  top := always
  defn := {
    name := "min_spores"
    equations := [
      (always, .arith (bin (.sum (bin (.comp "flow_cap") .times (.comp "spores_score")) ["nodes", "techs",
        "carriers"]) .plus (.sub "unmet_demand")))]
    subs := [
      ("unmet_demand", [
        (always, bin (.sum (bin (.sum (bin (.comp "unmet_demand") .minus (.comp "unused_supply")) ["carriers",
          "nodes"]) .times (.comp "timestep_weights")) ["timesteps"]) .times (.comp "bigM"))])]
    slices := [] }

end BaseMath
end Calliope
