import Verif.Model.InterCluster

/-!
# Postprocessed arrays

Source: the `postprocessed` arrays of `/repo/src/calliope/math/base.yaml`, each component as the parsed form of its
strings.  They are evaluated on the results of a model together with its inputs
(`/repo/src/calliope/backend/backend_model.py:362-390,682-703`), so that their conditions may compare results.
`total_generation` is in `Model/BaseMath.lean`.

The forms are checked against the tokens of the strings in `Props/MathStrings.lean`.
-/

namespace Calliope
namespace BaseMath

open Grid Infix Expr Expand Build

variable {V : Type} [Field V]

/-- `capacity_factor` (base.yaml:1247-1256). -/
def capacityFactor : Component V :=
  single "capacity_factor" ["nodes", "techs", "carriers", "timesteps"] (both (built "flow_out") (.atom (.cmp (.result
    "flow_cap") .gt (.num 0))))
    (.arith (bin (.comp "flow_out") .div (bin (.comp "flow_cap") .times (.comp "timestep_resolution"))))

/-- `systemwide_capacity_factor` (base.yaml:1258-1270). -/
def systemwideCapacityFactor : Component V :=
  single "systemwide_capacity_factor" ["techs", "carriers"] (both (built "flow_out") (.atom (.cmp (.result "flow_cap")
    .gt (.num 0))))
    (.arith (bin (.sum (bin (.comp "flow_out") .times (.comp "timestep_weights")) ["nodes", "timesteps"]) .div (bin
      (.sum (.comp "flow_cap") ["nodes"]) .times (.sum (bin (.comp "timestep_resolution") .times (.comp
      "timestep_weights")) ["timesteps"]))))

/-- `systemwide_levelised_cost` (base.yaml:1283-1293). -/
def systemwideLevelisedCost : Component V :=
  single "systemwide_levelised_cost" ["techs", "carriers", "costs"] (both (.atom (.cmp (.result "total_generation")
    .gt (.num 0))) (.atom (.anyResult "cost" ["nodes"])))
    (.arith (bin (.sum (.comp "cost") ["nodes"]) .div (.comp "total_generation")))

/-- `total_levelised_cost` (base.yaml:1295-1305). -/
def totalLevelisedCost : Component V :=
  single "total_levelised_cost" ["carriers", "costs"] (.atom (.cmp (.total "total_generation" ["techs"]) .gt (.num
    0)))
    (.arith (bin (.sum (.comp "cost") ["nodes", "techs"]) .div (.sum (.comp "total_generation") ["techs"])))

/-- `unmet_sum` (base.yaml:1307-1319). -/
def unmetSum : Component V :=
  single "unmet_sum" ["nodes", "carriers", "timesteps"] (.atom (.cmp (.config "ensure_feasibility") .eq (.bool true)))
    (.arith (bin (.comp "unmet_demand") .plus (.comp "unused_supply")))

/-- `curtailment` (base.yaml:1321-1333). -/
def curtailment : Component V where
  foreach := ["nodes", "techs", "timesteps"]
  top := (.chain (isText "base_tech" "supply") (.more .and (.atom (.cmp (.input "source_use_max") .gt (.num 0)))
    (.more .and (no (.atom (.cmp (.input "source_use_max") .eq (.inf)))) (.one .and (.atom (.cmp (.result
    "source_cap") .gt (.num 0)))))))
  defn := {
    name := "curtailment"
    equations := [
      (always, .arith (bin (.num 1) .minus (bin (.comp "source_use") .div (bin (.comp "source_use_max") .times (.sub
        "source_scaler")))))]
    subs := [
      ("source_scaler", [
        ((isText "source_unit" "per_area"), .comp "area_use"),
        ((isText "source_unit" "per_cap"), .sum (.comp "flow_cap") ["carriers"]),
        ((isText "source_unit" "absolute"), .num 1)])]
    slices := [] }

/-- `total_curtailment` (base.yaml:1335-1348). -/
def totalCurtailment : Component V where
  foreach := ["nodes", "techs"]
  top := (.chain (isText "base_tech" "supply") (.more .and (given "source_use_max") (.one .and (.atom (.cmp (.result
    "source_cap") .gt (.num 0))))))
  defn := {
    name := "total_curtailment"
    equations := [
      (always, .arith (bin (.num 1) .minus (bin (.sum (.comp "source_use") ["timesteps"]) .div (.sum (bin (.comp
        "source_use_max") .times (.sub "source_scaler")) ["timesteps"]))))]
    subs := [
      ("source_scaler", [
        ((isText "source_unit" "per_area"), .comp "area_use"),
        ((isText "source_unit" "per_cap"), .sum (.comp "flow_cap") ["carriers"]),
        ((isText "source_unit" "absolute"), .num 1)])]
    slices := [] }

end BaseMath
end Calliope
