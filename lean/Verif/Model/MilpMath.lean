import Verif.Model.InterCluster

/-!
# Integer units and switches

Source: `/repo/src/calliope/math/milp.yaml`, each component as the parsed form of its strings.  A definition that also
is in `/repo/src/calliope/math/base.yaml` replaces the parts of the base definition that it gives
(`Model/Imports.lean`).

The forms are checked against the tokens of the strings in `Props/MathStrings.lean`.
-/

namespace Calliope
namespace BaseMath

open Grid Infix Expr Expand Build

variable {V : Type} [Field V]

/-- `unit_commitment_milp` (milp.yaml:215-222). -/
def unitCommitmentMilp : Component V :=
  single "unit_commitment_milp" ["nodes", "techs", "timesteps"] (both (built "operating_units") (built
    "purchased_units"))
    (.cmp (.comp "operating_units") "<=" (.comp "purchased_units"))

/-- `flow_out_max_milp` (milp.yaml:224-231). -/
def flowOutMaxMilp : Component V :=
  single "flow_out_max_milp" ["nodes", "techs", "carriers", "timesteps"] (.chain (built "flow_out") (.more .and (built
    "operating_units") (.one .and (given "flow_cap_per_unit"))))
    (.cmp (.comp "flow_out") "<=" (.chain (.comp "operating_units") (.more .times (.comp "timestep_resolution") (.more
      .times (.comp "flow_cap_per_unit") (.one .times (.comp "flow_out_parasitic_eff"))))))

/-- `flow_in_max_milp` (milp.yaml:233-240). -/
def flowInMaxMilp : Component V :=
  single "flow_in_max_milp" ["nodes", "techs", "carriers", "timesteps"] (.chain (built "flow_in") (.more .and (built
    "operating_units") (.one .and (given "flow_cap_per_unit"))))
    (.cmp (.comp "flow_in") "<=" (bin3 (.comp "operating_units") .times (.comp "timestep_resolution") .times (.comp
      "flow_cap_per_unit")))

/-- `flow_out_min_milp` (milp.yaml:242-252). -/
def flowOutMinMilp : Component V where
  foreach := ["nodes", "techs", "carriers", "timesteps"]
  top := (.chain (built "flow_out") (.more .and (built "operating_units") (.one .and (given
    "flow_out_min_relative"))))
  defn := {
    name := "flow_out_min_milp"
    equations := [
      ((given "flow_cap_per_unit"), .cmp (.comp "flow_out") ">=" (.chain (.comp "operating_units") (.more .times
        (.comp "timestep_resolution") (.more .times (.comp "flow_cap_per_unit") (.one .times (.comp
        "flow_out_min_relative")))))),
      ((built "available_flow_cap"), .cmp (.comp "flow_out") ">=" (bin3 (.comp "available_flow_cap") .times (.comp
        "timestep_resolution") .times (.comp "flow_out_min_relative")))]
    subs := []
    slices := [] }

/-- `storage_capacity_units_milp` (milp.yaml:254-260). -/
def storageCapacityUnitsMilp : Component V :=
  single "storage_capacity_units_milp" ["nodes", "techs"] (.chain (built "storage") (.more .and (built
    "purchased_units") (.one .and (given "storage_cap_per_unit"))))
    (.cmp (.comp "storage_cap") "==" (bin (.comp "purchased_units") .times (.comp "storage_cap_per_unit")))

/-- `flow_capacity_units_milp` (milp.yaml:262-268). -/
def flowCapacityUnitsMilp : Component V :=
  single "flow_capacity_units_milp" ["nodes", "techs", "carriers"] (both (built "purchased_units") (given
    "flow_cap_per_unit"))
    (.cmp (.comp "flow_cap") "==" (bin (.comp "purchased_units") .times (.comp "flow_cap_per_unit")))

/-- `flow_capacity_max_purchase_milp` (milp.yaml:270-280). -/
def flowCapacityMaxPurchaseMilp : Component V where
  foreach := ["nodes", "techs", "carriers"]
  top := (built "purchased_units")
  defn := {
    name := "flow_capacity_max_purchase_milp"
    equations := [
      ((given "flow_cap_max"), .cmp (.comp "flow_cap") "<=" (bin (.comp "flow_cap_max") .times (.comp
        "purchased_units"))),
      ((no (given "flow_cap_max")), .cmp (.comp "flow_cap") "<=" (bin (.comp "bigM") .times (.comp
        "purchased_units")))]
    subs := []
    slices := [] }

/-- `storage_capacity_max_purchase_milp` (milp.yaml:282-289). -/
def storageCapacityMaxPurchaseMilp : Component V :=
  single "storage_capacity_max_purchase_milp" ["nodes", "techs"] (both (built "purchased_units") (given
    "storage_cap_max"))
    (.cmp (.comp "storage_cap") "<=" (bin (.comp "storage_cap_max") .times (.comp "purchased_units")))

/-- `unit_capacity_max_systemwide_milp` (milp.yaml:291-299). -/
def unitCapacityMaxSystemwideMilp : Component V :=
  single "unit_capacity_max_systemwide_milp" ["techs"] (both (built "purchased_units") (given
    "purchased_units_max_systemwide"))
    (.cmp (.sum (.comp "purchased_units") ["nodes"]) "<=" (.comp "purchased_units_max_systemwide"))

/-- `unit_capacity_min_systemwide_milp` (milp.yaml:301-309). -/
def unitCapacityMinSystemwideMilp : Component V :=
  single "unit_capacity_min_systemwide_milp" ["techs"] (both (built "purchased_units") (given
    "purchased_units_max_systemwide"))
    (.cmp (.sum (.comp "purchased_units") ["nodes"]) ">=" (.comp "purchased_units_min_systemwide"))

/-- `async_flow_in_milp` (milp.yaml:311-318). -/
def asyncFlowInMilp : Component V :=
  single "async_flow_in_milp" ["nodes", "techs", "timesteps"] (built "async_flow_switch")
    (.cmp (.sum (.comp "flow_in") ["carriers"]) "<=" (bin (bin (.num 1) .minus (.comp "async_flow_switch")) .times
      (.comp "bigM")))

/-- `async_flow_out_milp` (milp.yaml:320-327). -/
def asyncFlowOutMilp : Component V :=
  single "async_flow_out_milp" ["nodes", "techs", "timesteps"] (built "async_flow_switch")
    (.cmp (.sum (.comp "flow_out") ["carriers"]) "<=" (bin (.comp "async_flow_switch") .times (.comp "bigM")))

/-- `available_flow_cap_continuous` (milp.yaml:329-336). -/
def availableFlowCapContinuous : Component V :=
  single "available_flow_cap_continuous" ["nodes", "techs", "carriers", "timesteps"] (built "available_flow_cap")
    (.cmp (.comp "available_flow_cap") "<=" (.comp "flow_cap"))

/-- `available_flow_cap_binary` (milp.yaml:338-343). -/
def availableFlowCapBinary : Component V :=
  single "available_flow_cap_binary" ["nodes", "techs", "carriers", "timesteps"] (built "available_flow_cap")
    (.cmp (.comp "available_flow_cap") "<=" (bin (.comp "flow_cap_max") .times (.comp "operating_units")))

/-- `available_flow_cap_max_binary_continuous_switch` (milp.yaml:345-352). -/
def availableFlowCapMaxBinaryContinuousSwitch : Component V :=
  single "available_flow_cap_max_binary_continuous_switch" ["nodes", "techs", "carriers", "timesteps"] (built
    "available_flow_cap")
    (.cmp (.comp "available_flow_cap") ">=" (bin (.comp "flow_cap") .plus (bin (bin (.comp "operating_units") .minus
      (.comp "purchased_units")) .times (.comp "flow_cap_max"))))

/-- `flow_capacity_minimum` (milp.yaml:354-365). -/
def flowCapacityMinimum : Component V where
  foreach := ["nodes", "techs", "carriers"]
  top := (given "flow_cap_min")
  defn := {
    name := "flow_capacity_minimum"
    equations := [
      ((no (built "purchased_units")), .cmp (.comp "flow_cap") ">=" (.comp "flow_cap_min")),
      ((built "purchased_units"), .cmp (.comp "flow_cap") ">=" (bin (.comp "flow_cap_min") .times (.comp
        "purchased_units")))]
    subs := []
    slices := [] }

/-- `storage_capacity_minimum` (milp.yaml:367-378). -/
def storageCapacityMinimum : Component V where
  foreach := ["nodes", "techs"]
  top := (given "storage_cap_min")
  defn := {
    name := "storage_capacity_minimum"
    equations := [
      ((no (built "purchased_units")), .cmp (.comp "storage_cap") ">=" (.comp "storage_cap_min")),
      ((built "purchased_units"), .cmp (.comp "storage_cap") ">=" (bin (.comp "storage_cap_min") .times (.comp
        "purchased_units")))]
    subs := []
    slices := [] }

/-- `area_use_minimum` (milp.yaml:380-391). -/
def areaUseMinimum : Component V where
  foreach := ["nodes", "techs"]
  top := (given "area_use_min")
  defn := {
    name := "area_use_minimum"
    equations := [
      ((no (built "purchased_units")), .cmp (.comp "area_use") ">=" (.comp "area_use_min")),
      ((built "purchased_units"), .cmp (.comp "area_use") ">=" (bin (.comp "area_use_min") .times (.comp
        "purchased_units")))]
    subs := []
    slices := [] }

/-- `source_capacity_minimum` (milp.yaml:393-404). -/
def sourceCapacityMinimum : Component V where
  foreach := ["nodes", "techs"]
  top := (both (isText "base_tech" "supply") (given "source_cap_min"))
  defn := {
    name := "source_capacity_minimum"
    equations := [
      ((no (built "purchased_units")), .cmp (.comp "source_cap") ">=" (.comp "source_cap_min")),
      ((built "purchased_units"), .cmp (.comp "source_cap") ">=" (bin (.comp "source_cap_min") .times (.comp
        "purchased_units")))]
    subs := []
    slices := [] }

/-- `flow_out_max` (base.yaml:627-633, milp.yaml:408-411). -/
def flowOutMaxContinuous : Component V :=
  single "flow_out_max" ["nodes", "techs", "carriers", "timesteps"] (both (given "carrier_out") (no (built
    "operating_units")))
    (.cmp (.comp "flow_out") "<=" (bin3 (.comp "flow_cap") .times (.comp "timestep_resolution") .times (.comp
      "flow_out_parasitic_eff")))

/-- `flow_out_min` (base.yaml:636-642, milp.yaml:413-416). -/
def flowOutMinContinuous : Component V :=
  single "flow_out_min" ["nodes", "techs", "carriers", "timesteps"] (both (given "flow_out_min_relative") (no (built
    "operating_units")))
    (.cmp (.comp "flow_out") ">=" (bin3 (.comp "flow_cap") .times (.comp "timestep_resolution") .times (.comp
      "flow_out_min_relative")))

/-- `flow_in_max` (base.yaml:644-650, milp.yaml:418-421). -/
def flowInMaxContinuous : Component V :=
  single "flow_in_max" ["nodes", "techs", "carriers", "timesteps"] (both (given "carrier_in") (no (built
    "operating_units")))
    (.cmp (.comp "flow_in") "<=" (bin (.comp "flow_cap") .times (.comp "timestep_resolution")))

/-- `flow_capacity_systemwide_min` (base.yaml:610-616, milp.yaml:423-432). -/
def flowCapacitySystemwideMinMilp : Component V where
  foreach := ["techs", "carriers"]
  top := (given "flow_cap_min_systemwide")
  defn := {
    name := "flow_capacity_systemwide_min"
    equations := [
      ((.atom (.anyResult "purchased_units" ["nodes"])), .cmp (.sum (.comp "flow_cap") ["nodes"]) ">=" (bin (.comp
        "flow_cap_min_systemwide") .times (.sum (.comp "purchased_units") ["nodes"]))),
      ((no (.atom (.anyResult "purchased_units" ["nodes"]))), .cmp (.sum (.comp "flow_cap") ["nodes"]) ">=" (.comp
        "flow_cap_min_systemwide"))]
    subs := []
    slices := [] }

end BaseMath
end Calliope
