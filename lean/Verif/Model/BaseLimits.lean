import Verif.Model.InterCluster

/-!
# Limits on capacities, flows and storage

Source: `/repo/src/calliope/math/base.yaml`, each component as the parsed form of its strings.

The forms are checked against the tokens of the strings in `Props/MathStrings.lean`.
-/

namespace Calliope
namespace BaseMath

open Grid Infix Expr Expand Build

variable {V : Type} [Field V]

/-- `flow_capacity_per_storage_capacity_min` (base.yaml:554-560). -/
def flowCapacityPerStorageCapacityMin : Component V :=
  single "flow_capacity_per_storage_capacity_min" ["nodes", "techs", "carriers"] (both (built "storage_cap") (given
    "flow_cap_per_storage_cap_min"))
    (.cmp (.comp "flow_cap") ">=" (bin (.comp "storage_cap") .times (.comp "flow_cap_per_storage_cap_min")))

/-- `flow_capacity_per_storage_capacity_max` (base.yaml:562-568). -/
def flowCapacityPerStorageCapacityMax : Component V :=
  single "flow_capacity_per_storage_capacity_max" ["nodes", "techs", "carriers"] (both (built "storage_cap") (given
    "flow_cap_per_storage_cap_max"))
    (.cmp (.comp "flow_cap") "<=" (bin (.comp "storage_cap") .times (.comp "flow_cap_per_storage_cap_max")))

/-- `source_capacity_equals_flow_capacity` (base.yaml:570-576). -/
def sourceCapacityEqualsFlowCapacity : Component V :=
  single "source_capacity_equals_flow_capacity" ["nodes", "techs", "carriers"] (both (built "source_cap") (isTrue
    "source_cap_equals_flow_cap"))
    (.cmp (.comp "source_cap") "==" (.comp "flow_cap"))

/-- `force_zero_area_use` (base.yaml:578-584). -/
def forceZeroAreaUse : Component V :=
  single "force_zero_area_use" ["nodes", "techs"] (both (built "area_use") (.atom (.cmp (.input "flow_cap_max") .eq
    (.num 0))))
    (.cmp (.comp "area_use") "==" (.num 0))

/-- `area_use_per_flow_capacity` (base.yaml:586-592). -/
def areaUsePerFlowCapacity : Component V :=
  single "area_use_per_flow_capacity" ["nodes", "techs", "carriers"] (both (built "area_use") (given
    "area_use_per_flow_cap"))
    (.cmp (.comp "area_use") "==" (bin (.comp "flow_cap") .times (.comp "area_use_per_flow_cap")))

/-- `area_use_capacity_per_loc` (base.yaml:594-600). -/
def areaUseCapacityPerLoc : Component V :=
  single "area_use_capacity_per_loc" ["nodes"] (both (built "area_use") (given "available_area"))
    (.cmp (.sum (.comp "area_use") ["techs"]) "<=" (.comp "available_area"))

/-- `flow_capacity_systemwide_max` (base.yaml:602-608). -/
def flowCapacitySystemwideMax : Component V :=
  single "flow_capacity_systemwide_max" ["techs", "carriers"] (given "flow_cap_max_systemwide")
    (.cmp (.sum (.comp "flow_cap") ["nodes"]) "<=" (.comp "flow_cap_max_systemwide"))

/-- `flow_capacity_systemwide_min` (base.yaml:610-616). -/
def flowCapacitySystemwideMin : Component V :=
  single "flow_capacity_systemwide_min" ["techs", "carriers"] (given "flow_cap_min_systemwide")
    (.cmp (.sum (.comp "flow_cap") ["nodes"]) ">=" (.comp "flow_cap_min_systemwide"))

/-- `flow_out_max` (base.yaml:627-633). -/
def flowOutMax : Component V :=
  single "flow_out_max" ["nodes", "techs", "carriers", "timesteps"] (given "carrier_out")
    (.cmp (.comp "flow_out") "<=" (bin3 (.comp "flow_cap") .times (.comp "timestep_resolution") .times (.comp
      "flow_out_parasitic_eff")))

/-- `flow_out_min` (base.yaml:636-642). -/
def flowOutMin : Component V :=
  single "flow_out_min" ["nodes", "techs", "carriers", "timesteps"] (given "flow_out_min_relative")
    (.cmp (.comp "flow_out") ">=" (bin3 (.comp "flow_cap") .times (.comp "timestep_resolution") .times (.comp
      "flow_out_min_relative")))

/-- `flow_in_max` (base.yaml:644-650). -/
def flowInMax : Component V :=
  single "flow_in_max" ["nodes", "techs", "carriers", "timesteps"] (given "carrier_in")
    (.cmp (.comp "flow_in") "<=" (bin (.comp "flow_cap") .times (.comp "timestep_resolution")))

/-- `source_max` (base.yaml:652-658). -/
def sourceMax : Component V :=
  single "source_max" ["nodes", "techs", "timesteps"] (built "source_cap")
    (.cmp (.comp "source_use") "<=" (bin (.comp "timestep_resolution") .times (.comp "source_cap")))

/-- `storage_max` (base.yaml:660-666). -/
def storageMax : Component V :=
  single "storage_max" ["nodes", "techs", "timesteps"] (built "storage")
    (.cmp (.comp "storage") "<=" (.comp "storage_cap"))

/-- `storage_discharge_depth_limit` (base.yaml:668-674). -/
def storageDischargeDepthLimit : Component V :=
  single "storage_discharge_depth_limit" ["nodes", "techs", "timesteps"] (both (built "storage") (given
    "storage_discharge_depth"))
    (.cmp (bin (.comp "storage") .minus (bin (.comp "storage_discharge_depth") .times (.comp "storage_cap"))) ">="
      (.num 0))

/-- `balance_demand` (base.yaml:688-706). -/
def balanceDemand : Component V where
  foreach := ["nodes", "techs", "carriers", "timesteps"]
  top := (isText "base_tech" "demand")
  defn := {
    name := "balance_demand"
    equations := [
      ((given "sink_use_equals"), .cmp (.comp "flow_in_inc_eff") "==" (bin (.comp "sink_use_equals") .times (.sub
        "sink_scaler"))),
      ((both (no (given "sink_use_equals")) (given "sink_use_max")), .cmp (.comp "flow_in_inc_eff") "<=" (bin (.comp
        "sink_use_max") .times (.sub "sink_scaler")))]
    subs := [
      ("sink_scaler", [
        ((isText "sink_unit" "per_area"), .comp "area_use"),
        ((isText "sink_unit" "per_cap"), .sum (.comp "flow_cap") ["carriers"]),
        ((isText "sink_unit" "absolute"), .num 1)])]
    slices := [] }

/-- `balance_demand_min_use` (base.yaml:708-717). -/
def balanceDemandMinUse : Component V where
  foreach := ["nodes", "techs", "carriers", "timesteps"]
  top := (.chain (given "sink_use_min") (.more .and (no (given "sink_use_equals")) (.one .and (isText "base_tech"
    "demand"))))
  defn := {
    name := "balance_demand_min_use"
    equations := [
      (always, .cmp (.comp "flow_in_inc_eff") ">=" (bin (.comp "sink_use_min") .times (.sub "sink_scaler")))]
    subs := [
      ("sink_scaler", [
        ((isText "sink_unit" "per_area"), .comp "area_use"),
        ((isText "sink_unit" "per_cap"), .sum (.comp "flow_cap") ["carriers"]),
        ((isText "sink_unit" "absolute"), .num 1)])]
    slices := [] }

/-- `balance_supply_no_storage` (base.yaml:719-725). -/
def balanceSupplyNoStorage : Component V :=
  single "balance_supply_no_storage" ["nodes", "techs", "carriers", "timesteps"] (both (isText "base_tech" "supply")
    (no (isTrue "include_storage")))
    (.cmp (.comp "flow_out_inc_eff") "==" (bin (.comp "source_use") .times (.comp "source_eff")))

/-- `source_availability_supply` (base.yaml:753-771). -/
def sourceAvailabilitySupply : Component V where
  foreach := ["nodes", "techs", "timesteps"]
  top := (both (built "source_use") (either (given "source_use_equals") (given "source_use_max")))
  defn := {
    name := "source_availability_supply"
    equations := [
      ((given "source_use_equals"), .cmp (.comp "source_use") "==" (bin (.comp "source_use_equals") .times (.sub
        "source_scaler"))),
      ((both (no (given "source_use_equals")) (given "source_use_max")), .cmp (.comp "source_use") "<=" (bin (.comp
        "source_use_max") .times (.sub "source_scaler")))]
    subs := [
      ("source_scaler", [
        ((isText "source_unit" "per_area"), .comp "area_use"),
        ((isText "source_unit" "per_cap"), .sum (.comp "flow_cap") ["carriers"]),
        ((isText "source_unit" "absolute"), .num 1)])]
    slices := [] }

/-- `balance_supply_min_use` (base.yaml:773-781). -/
def balanceSupplyMinUse : Component V where
  foreach := ["nodes", "techs", "timesteps"]
  top := (.chain (given "source_use_min") (.more .and (no (given "source_use_equals")) (.one .and (isText "base_tech"
    "supply"))))
  defn := {
    name := "balance_supply_min_use"
    equations := [
      (always, .cmp (.comp "source_use") ">=" (bin (.comp "source_use_min") .times (.sub "source_scaler")))]
    subs := [
      ("source_scaler", [
        ((isText "source_unit" "per_area"), .comp "area_use"),
        ((isText "source_unit" "per_cap"), .sum (.comp "flow_cap") ["carriers"]),
        ((isText "source_unit" "absolute"), .num 1)])]
    slices := [] }

/-- `symmetric_transmission` (base.yaml:824-830). -/
def symmetricTransmission : Component V :=
  single "symmetric_transmission" ["nodes", "techs"] (isText "base_tech" "transmission")
    (.cmp (.sum (.comp "flow_cap") ["carriers"]) "==" (.comp "link_flow_cap"))

/-- `export_balance` (base.yaml:832-839). -/
def exportBalance : Component V :=
  single "export_balance" ["nodes", "techs", "carriers", "timesteps"] (built "flow_export")
    (.cmp (.comp "flow_out") ">=" (.comp "flow_export"))

/-- `ramping_up` (base.yaml:841-856). -/
def rampingUp : Component V where
  foreach := ["nodes", "techs", "carriers", "timesteps"]
  top := (both (given "flow_ramping") (no firstStep))
  defn := {
    name := "ramping_up"
    equations := [
      (always, .cmp (bin (.sub "flow") .minus (.roll (.sub "flow") [("timesteps", 1)])) "<=" (bin (.comp
        "flow_ramping") .times (.comp "flow_cap")))]
    subs := [
      ("flow", [
        ((both (given "carrier_out") (no (given "carrier_in"))), bin (.comp "flow_out") .div (.comp
          "timestep_resolution")),
        ((both (given "carrier_in") (no (given "carrier_out"))), bin (.comp "flow_in") .div (.comp
          "timestep_resolution")),
        ((both (given "carrier_in") (given "carrier_out")), bin (bin (.comp "flow_out") .minus (.comp "flow_in")) .div
          (.comp "timestep_resolution"))])]
    slices := [] }

/-- `ramping_down` (base.yaml:858-867). -/
def rampingDown : Component V where
  foreach := ["nodes", "techs", "carriers", "timesteps"]
  top := (both (given "flow_ramping") (no firstStep))
  defn := {
    name := "ramping_down"
    equations := [
      (always, .cmp (bin3 (.sign .minus (.num 1)) .times (.comp "flow_ramping") .times (.comp "flow_cap")) "<=" (bin
        (.sub "flow") .minus (.roll (.sub "flow") [("timesteps", 1)])))]
    subs := [
      ("flow", [
        ((both (given "carrier_out") (no (given "carrier_in"))), bin (.comp "flow_out") .div (.comp
          "timestep_resolution")),
        ((both (given "carrier_in") (no (given "carrier_out"))), bin (.comp "flow_in") .div (.comp
          "timestep_resolution")),
        ((both (given "carrier_in") (given "carrier_out")), bin (bin (.comp "flow_out") .minus (.comp "flow_in")) .div
          (.comp "timestep_resolution"))])]
    slices := [] }

end BaseMath
end Calliope
