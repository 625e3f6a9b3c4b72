import Verif.Model.InterCluster

/-!
# Decision variables

Source: the `variables` of `/repo/src/calliope/math/base.yaml`, `/repo/src/calliope/math/milp.yaml` and
`/repo/src/calliope/math/storage_inter_cluster.yaml`, and `/repo/src/calliope/backend/backend_model.py:162-217`.  A
definition of another math file replaces the parts of the base definition that it gives.

Simplification: infinite bounds, also as the value or default of an input, are no bounds.  `references` are left out.

The conditions are checked against the tokens of the strings in `Props/MathStrings.lean`.
-/

namespace Calliope
namespace BaseMath

open Grid Infix Expr Expand Build

variable {V : Type} [Field V]

/-- A bound of a variable: a number, none, or the name of an input. -/
inductive Bound (V : Type) where
  | num (v : V)
  | unbounded
  | input (n : String)

/-- A decision variable as in the math definition. -/
structure Variable (V : Type) where
  name : String
  foreach : List String
  top : Cond
  integer : Bool
  lower : Bound V
  upper : Bound V

/-- The bounds of one item. -/
structure Limits (V : Type) where
  lower : Option V
  upper : Option V

/-- `_get_variable_bound` (backend_model.py:1486-1516): the parameter, filled with its default. -/
def boundArr (E : Expr.Env V) : Bound V → Except Err (Arr (Option V))
  | .num v => .ok (scalar (some v))
  | .unbounded => .ok (scalar none)
  | .input n =>
    match E.comp n with
    | some c => .ok (map (fill c.default) c.arr)
    | none => .error .keyError

/-- `add_variable` (backend_model.py:162-217), `_add_variable` (pyomo_backend_model.py:195-215): an item with its bounds
wherever the mask is true. -/
def buildVariable (W : Where.Env) (E : Expr.Env V) (v : Variable V) : Except Err (Arr (Option (Limits V))) :=
  match variableMask W v.foreach v.top with
  | .error x => .error x
  | .ok m =>
    if anyCell W.coords m then
      match boundArr E v.lower, boundArr E v.upper with
      | .ok l, .ok u => .ok (zip (fun m p => if m then some p else none) m (zip Limits.mk l u))
      | .error x, _ => .error x
      | _, .error x => .error x
    else .ok (scalar none)

/-- `flow_cap` (base.yaml:870-879). -/
def flowCapVar : Variable V where
  name := "flow_cap"
  foreach := ["nodes", "techs", "carriers"]
  top := always
  integer := false
  lower := .input "flow_cap_min"
  upper := .input "flow_cap_max"

/-- `link_flow_cap` (base.yaml:881-891). -/
def linkFlowCapVar : Variable V where
  name := "link_flow_cap"
  foreach := ["techs"]
  top := (isText "base_tech" "transmission")
  integer := false
  lower := .num 0
  upper := .unbounded

/-- `flow_out` (base.yaml:893-905). -/
def flowOutVar : Variable V where
  name := "flow_out"
  foreach := ["nodes", "techs", "carriers", "timesteps"]
  top := (given "carrier_out")
  integer := false
  lower := .num 0
  upper := .unbounded

/-- `flow_in` (base.yaml:907-919). -/
def flowInVar : Variable V where
  name := "flow_in"
  foreach := ["nodes", "techs", "carriers", "timesteps"]
  top := (given "carrier_in")
  integer := false
  lower := .num 0
  upper := .unbounded

/-- `flow_export` (base.yaml:921-931). -/
def flowExportVar : Variable V where
  name := "flow_export"
  foreach := ["nodes", "techs", "carriers", "timesteps"]
  top := (given "carrier_export")
  integer := false
  lower := .input "export_min"
  upper := .input "export_max"

/-- `area_use` (base.yaml:933-944). -/
def areaUseVar : Variable V where
  name := "area_use"
  foreach := ["nodes", "techs"]
  top := (.chain (given "area_use_min") (.more .or (given "area_use_max") (.more .or (given "area_use_per_flow_cap")
    (.more .or (isText "sink_unit" "per_area") (.one .or (isText "source_unit" "per_area"))))))
  integer := false
  lower := .input "area_use_min"
  upper := .input "area_use_max"

/-- `source_use` (base.yaml:946-956). -/
def sourceUseVar : Variable V where
  name := "source_use"
  foreach := ["nodes", "techs", "timesteps"]
  top := (isText "base_tech" "supply")
  integer := false
  lower := .num 0
  upper := .unbounded

/-- `source_cap` (base.yaml:958-969). -/
def sourceCapVar : Variable V where
  name := "source_cap"
  foreach := ["nodes", "techs"]
  top := (isText "base_tech" "supply")
  integer := false
  lower := .input "source_cap_min"
  upper := .input "source_cap_max"

/-- `storage_cap` (base.yaml:972-985). -/
def storageCapVar : Variable V where
  name := "storage_cap"
  foreach := ["nodes", "techs"]
  top := (either (isTrue "include_storage") (isText "base_tech" "storage"))
  integer := false
  lower := .input "storage_cap_min"
  upper := .input "storage_cap_max"

/-- `storage` (base.yaml:988-998). -/
def storageVar : Variable V where
  name := "storage"
  foreach := ["nodes", "techs", "timesteps"]
  top := (either (isTrue "include_storage") (isText "base_tech" "storage"))
  integer := false
  lower := .num 0
  upper := .unbounded

/-- `unmet_demand` (base.yaml:1000-1014). -/
def unmetDemandVar : Variable V where
  name := "unmet_demand"
  foreach := ["nodes", "carriers", "timesteps"]
  top := (.atom (.cmp (.config "ensure_feasibility") .eq (.bool true)))
  integer := false
  lower := .num 0
  upper := .unbounded

/-- `unused_supply` (base.yaml:1016-1033). -/
def unusedSupplyVar : Variable V where
  name := "unused_supply"
  foreach := ["nodes", "carriers", "timesteps"]
  top := (.atom (.cmp (.config "ensure_feasibility") .eq (.bool true)))
  integer := false
  lower := .unbounded
  upper := .num 0

/-- `purchased_units` (milp.yaml:106-129). -/
def purchasedUnitsVar : Variable V where
  name := "purchased_units"
  foreach := ["nodes", "techs"]
  top := (isText "cap_method" "integer")
  integer := true
  lower := .input "purchased_units_min"
  upper := .input "purchased_units_max"

/-- `operating_units` (milp.yaml:131-143). -/
def operatingUnitsVar : Variable V where
  name := "operating_units"
  foreach := ["nodes", "techs", "timesteps"]
  top := (both (isTrue "integer_dispatch") (isText "cap_method" "integer"))
  integer := true
  lower := .num 0
  upper := .unbounded

/-- `async_flow_switch` (milp.yaml:145-159). -/
def asyncFlowSwitchVar : Variable V where
  name := "async_flow_switch"
  foreach := ["nodes", "techs", "timesteps"]
  top := (isTrue "force_async_flow")
  integer := true
  lower := .num 0
  upper := .num 1

/-- `available_flow_cap` (milp.yaml:161-176). -/
def availableFlowCapVar : Variable V where
  name := "available_flow_cap"
  foreach := ["nodes", "techs", "carriers", "timesteps"]
  top := (.chain (isTrue "integer_dispatch") (.more .and (given "flow_cap_max") (.one .and (no (given
    "flow_cap_per_unit")))))
  integer := false
  lower := .num 0
  upper := .unbounded

/-- `flow_cap` (base.yaml:870-879, milp.yaml:180-185). -/
def flowCapMilpVar : Variable V where
  name := "flow_cap"
  foreach := ["nodes", "techs", "carriers"]
  top := always
  integer := false
  lower := .num 0
  upper := .input "flow_cap_max"

/-- `area_use` (base.yaml:933-944, milp.yaml:187-193). -/
def areaUseMilpVar : Variable V where
  name := "area_use"
  foreach := ["nodes", "techs"]
  top := (.chain (given "area_use_min") (.more .or (given "area_use_max") (.more .or (given "area_use_per_flow_cap")
    (.more .or (isText "sink_unit" "per_area") (.one .or (isText "source_unit" "per_area"))))))
  integer := false
  lower := .num 0
  upper := .input "area_use_max"

/-- `source_cap` (base.yaml:958-969, milp.yaml:195-201). -/
def sourceCapMilpVar : Variable V where
  name := "source_cap"
  foreach := ["nodes", "techs"]
  top := (isText "base_tech" "supply")
  integer := false
  lower := .num 0
  upper := .input "source_cap_max"

/-- `storage_cap` (base.yaml:972-985, milp.yaml:203-208). -/
def storageCapMilpVar : Variable V where
  name := "storage_cap"
  foreach := ["nodes", "techs"]
  top := (either (isTrue "include_storage") (isText "base_tech" "storage"))
  integer := false
  lower := .num 0
  upper := .input "storage_cap_max"

/-- `storage` (base.yaml:988-998, storage_inter_cluster.yaml:116-124). -/
def storageIntraVar : Variable V where
  name := "storage"
  foreach := ["nodes", "techs", "timesteps"]
  top := (either (isTrue "include_storage") (isText "base_tech" "storage"))
  integer := false
  lower := .unbounded
  upper := .unbounded

/-- `storage_inter_cluster` (storage_inter_cluster.yaml:126-137). -/
def storageInterClusterVar : Variable V where
  name := "storage_inter_cluster"
  foreach := ["nodes", "techs", "datesteps"]
  top := (either (isTrue "include_storage") (isText "base_tech" "storage"))
  integer := false
  lower := .num 0
  upper := .unbounded

/-- `storage_intra_cluster_max` (storage_inter_cluster.yaml:139-149). -/
def storageIntraClusterMaxVar : Variable V where
  name := "storage_intra_cluster_max"
  foreach := ["nodes", "techs", "clusters"]
  top := (either (isTrue "include_storage") (isText "base_tech" "storage"))
  integer := false
  lower := .unbounded
  upper := .unbounded

/-- `storage_intra_cluster_min` (storage_inter_cluster.yaml:151-161). -/
def storageIntraClusterMinVar : Variable V where
  name := "storage_intra_cluster_min"
  foreach := ["nodes", "techs", "clusters"]
  top := (either (isTrue "include_storage") (isText "base_tech" "storage"))
  integer := false
  lower := .unbounded
  upper := .unbounded

end BaseMath
end Calliope
