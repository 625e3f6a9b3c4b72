import Verif.Model.Checks

/-!
# The checks of the math files

Source: the `checks` of `/repo/src/calliope/math/base.yaml`, `/repo/src/calliope/math/milp.yaml` and
`/repo/src/calliope/math/operate.yaml`, each condition as the parsed form of its string.

The conditions are checked against the tokens of the strings in `Props/MathStrings.lean`.
-/

namespace Calliope
namespace BaseMath

open Grid Infix Expr Expand Build

/-- `must_have_base` (base.yaml:1351-1354). -/
def mustHaveBase : Check where
  name := "must_have_base"
  cond := no (given "base_tech")
  message :=
    "An abstract `base_tech` must be defined for every technology at every node."
  raises := true

/-- `distance_only_for_transmission` (base.yaml:1356-1359). -/
def distanceOnlyForTransmission : Check where
  name := "distance_only_for_transmission"
  cond := both (no (isText "base_tech" "transmission")) (.chain (given "distance") (.more .or (given
    "flow_in_eff_per_distance") (.more .or (given "flow_out_eff_per_distance") (.one .or (given
    "cost_flow_cap_per_distance")))))
  message :=
    "Only transmission technologies can define `distance` or `..._per_distance`."
  raises := true

/-- `unbounded_flow_cap_cost` (base.yaml:1361-1364). -/
def unboundedFlowCapCost : Check where
  name := "unbounded_flow_cap_cost"
  cond := both (.atom (.cmp (.input "cost_flow_cap") .lt (.num 0))) (no (given "flow_cap_max"))
  message :=
    "Cannot have a negative `cost_flow_cap` as there is an unset corresponding `flow_cap_max` constraint"
  raises := true

/-- `unbounded_storage_cap_cost` (base.yaml:1366-1369). -/
def unboundedStorageCapCost : Check where
  name := "unbounded_storage_cap_cost"
  cond := both (.atom (.cmp (.input "cost_storage_cap") .lt (.num 0))) (no (given "storage_cap_max"))
  message :=
    "Cannot have a negative `cost_storage_cap` as there is an unset corresponding `storage_cap_max` constraint"
  raises := true

/-- `unbounded_area_use_cost` (base.yaml:1371-1374). -/
def unboundedAreaUseCost : Check where
  name := "unbounded_area_use_cost"
  cond := both (.atom (.cmp (.input "cost_area_use") .lt (.num 0))) (no (given "area_use_max"))
  message :=
    "Cannot have a negative `cost_area_use` as there is an unset corresponding `area_use_max` constraint"
  raises := true

/-- `unbounded_source_use_cost` (base.yaml:1376-1379). -/
def unboundedSourceUseCost : Check where
  name := "unbounded_source_use_cost"
  cond := both (.atom (.cmp (.input "cost_source_cap") .lt (.num 0))) (no (given "source_cap_max"))
  message :=
    "Cannot have a negative `cost_source_cap` as there is an unset corresponding `source_cap_max` constraint"
  raises := true

/-- `finite_source_use` (base.yaml:1381-1384). -/
def finiteSourceUse : Check where
  name := "finite_source_use"
  cond := either (.atom (.cmp (.input "source_use_equals") .eq (.inf))) (.atom (.cmp (.input "sink_use_equals") .eq
    (.inf)))
  message :=
    "Cannot include infinite values in `source_use_equals`/`sink_use_equals`"
  raises := true

/-- `all_or_nothing_lat_lon` (base.yaml:1386-1389). -/
def allOrNothingLatLon : Check where
  name := "all_or_nothing_lat_lon"
  cond := both (either (.atom (.anyInput "latitude" ["nodes"])) (.atom (.anyInput "longitude" ["nodes"]))) (no (either
    (given "latitude") (given "longitude")))
  message :=
    "Must define node latitude and longitude for _all_ nodes or _no_ nodes."
  raises := true

/-- `export_only_for_outflows` (base.yaml:1391-1394). -/
def exportOnlyForOutflows : Check where
  name := "export_only_for_outflows"
  cond := both (given "carrier_export") (no (.atom (.anyInput "carrier_out" ["nodes"])))
  message :=
    "Export carriers must be one of the technology outflow carriers."
  raises := true

/-- `storage_initial_max` (base.yaml:1396-1399). -/
def storageInitialMax : Check where
  name := "storage_initial_max"
  cond := both (given "storage_initial") (either (.atom (.cmp (.input "storage_initial") .lt (.num 0))) (.atom (.cmp
    (.input "storage_initial") .gt (.num 1))))
  message :=
    "storage_initial is a fraction, requiring values within the interval [0, 1]."
  raises := true

/-- `flow_in_for_supply_tech` (base.yaml:1401-1404). -/
def flowInForSupplyTech : Check where
  name := "flow_in_for_supply_tech"
  cond := both (isText "base_tech" "supply") (given "cost_flow_in")
  message :=
    "`cost_flow_in` does not apply to `supply` technologies. Use `cost_source_use` instead."
  raises := false

/-- `flow_out_for_demand_tech` (base.yaml:1406-1409). -/
def flowOutForDemandTech : Check where
  name := "flow_out_for_demand_tech"
  cond := both (isText "base_tech" "demand") (given "cost_flow_out")
  message :=
    "`cost_flow_out` does not apply to `demand` technologies. Use `cost_flow_in` instead."
  raises := false

/-- `no_storage_discharge_depth_when_clustering` (base.yaml:1411-1415). -/
def noStorageDischargeDepthWhenClustering : Check where
  name := "no_storage_discharge_depth_when_clustering"
  cond := both (given "storage_discharge_depth") (given "lookup_cluster_last_timestep")
  message :=
    "storage_discharge_depth will currently have no effect when time clustering is active."
  raises := false

/-- `cyclic_storage_needs_inter_cluster` (base.yaml:1417-1421). -/
def cyclicStorageNeedsInterCluster : Check where
  name := "cyclic_storage_needs_inter_cluster"
  cond := both (given "cyclic_storage") (given "lookup_cluster_last_timestep")
  message :=
    "Include the `storage_inter_cluster_storage` pre-defined math to allow cyclic storage alongside timeseries clustering."
  raises := true

/-- `distance_only_for_transmission_milp` (milp.yaml:472-475). -/
def distanceOnlyForTransmissionMilp : Check where
  name := "distance_only_for_transmission_milp"
  cond := both (no (isText "base_tech" "transmission")) (given "cost_purchase_per_distance")
  message :=
    "Only transmission technologies can define `distance` or `..._per_distance`."
  raises := true

/-- `conflicting_flow_caps` (milp.yaml:477-480). -/
def conflictingFlowCaps : Check where
  name := "conflicting_flow_caps"
  cond := both (either (given "flow_cap_max") (given "flow_cap_min")) (given "flow_cap_per_unit")
  message :=
    "Cannot define both `flow_cap_per_unit` and `flow_cap_max`/`flow_cap_min`"
  raises := true

/-- `unit_commitment_only_for_units` (milp.yaml:482-485). -/
def unitCommitmentOnlyForUnits : Check where
  name := "unit_commitment_only_for_units"
  cond := both (isTrue "integer_dispatch") (no (isText "cap_method" "integer"))
  message :=
    "Cannot use the integer `integer_dispatch` unless the technology is using an integer unit capacities (`cap_method=integer`)."
  raises := true

/-- `conflicting_storage_caps` (milp.yaml:487-490). -/
def conflictingStorageCaps : Check where
  name := "conflicting_storage_caps"
  cond := both (either (given "storage_cap_max") (given "storage_cap_min")) (given "storage_cap_per_unit")
  message :=
    "Cannot define both `storage_cap_per_unit` and `storage_cap_max`/`storage_cap_min`"
  raises := true

/-- `operate_mode_cyclic_storage` (operate.yaml:88-93). -/
def operateModeCyclicStorage : Check where
  name := "operate_mode_cyclic_storage"
  cond := both (isTrue "cyclic_storage") (either (isText "base_tech" "storage") (isTrue "include_storage"))
  message :=
    "Cyclic storage should be switched off in operate mode. Since the parameter defaults to True, make sure you explicitly set `cyclic_storage: false` for all your technologies with storage."
  raises := true

/-- The checks of base.yaml, in order. -/
def baseChecks : List Check := [mustHaveBase, distanceOnlyForTransmission, unboundedFlowCapCost,
  unboundedStorageCapCost, unboundedAreaUseCost, unboundedSourceUseCost, finiteSourceUse, allOrNothingLatLon,
  exportOnlyForOutflows, storageInitialMax, flowInForSupplyTech, flowOutForDemandTech,
  noStorageDischargeDepthWhenClustering, cyclicStorageNeedsInterCluster]

/-- The checks of milp.yaml, in order. -/
def milpChecks : List Check := [distanceOnlyForTransmissionMilp, conflictingFlowCaps, unitCommitmentOnlyForUnits,
  conflictingStorageCaps]

/-- The checks of operate.yaml, in order. -/
def operateChecks : List Check := [operateModeCyclicStorage]

end BaseMath
end Calliope
