import Verif.Model.MathText

/-!
# The strings of the math files

Source: `/repo/src/calliope/math/base.yaml`, `/repo/src/calliope/math/milp.yaml`, `/repo/src/calliope/math/operate.yaml`,
`/repo/src/calliope/math/spores.yaml` and `/repo/src/calliope/math/storage_inter_cluster.yaml`, written by
`tools/gen_math.py`: every component with its strings as they stand in the file.

Simplifications: titles, descriptions, units, defaults and the options of dimensions, parameters and lookups are left
out; YAML itself is read by the script (folded scalars, anchors, keys with dots).
-/

namespace Calliope
namespace MathText

/-! ### `base.yaml` -/

def base_dimensions_0 : List Raw :=
  plain [chars! "carriers",
    chars! "costs",
    chars! "nodes",
    chars! "techs",
    chars! "timesteps",
    chars! "clusters",
    chars! "datesteps"]

def base_parameters_0 : List Raw :=
  plain [chars! "area_use_max",
    chars! "area_use_min",
    chars! "area_use_per_flow_cap",
    chars! "available_area",
    chars! "bigM",
    chars! "cost_flow_cap_per_distance",
    chars! "cost_flow_cap",
    chars! "cost_export",
    chars! "cost_interest_rate",
    chars! "cost_om_annual",
    chars! "cost_om_annual_investment_fraction",
    chars! "cost_flow_in",
    chars! "cost_source_use",
    chars! "cost_flow_out",
    chars! "cost_area_use",
    chars! "cost_source_cap",
    chars! "cost_storage_cap",
    chars! "cost_depreciation_rate",
    chars! "distance",
    chars! "export_max"]

def base_parameters_1 : List Raw :=
  plain [chars! "export_min",
    chars! "flow_cap_per_storage_cap_min",
    chars! "flow_cap_per_storage_cap_max",
    chars! "flow_cap_max",
    chars! "flow_cap_max_systemwide",
    chars! "flow_cap_min",
    chars! "flow_cap_min_systemwide",
    chars! "flow_out_min_relative",
    chars! "flow_in_eff",
    chars! "flow_in_eff_per_distance",
    chars! "flow_out_eff",
    chars! "flow_out_eff_per_distance",
    chars! "flow_out_parasitic_eff",
    chars! "flow_ramping",
    chars! "lifetime",
    chars! "objective_cost_weights",
    chars! "sink_use_min",
    chars! "sink_use_max",
    chars! "sink_use_equals",
    chars! "source_eff"]

def base_parameters_2 : List Raw :=
  plain [chars! "source_use_min",
    chars! "source_use_max",
    chars! "source_use_equals",
    chars! "source_cap_max",
    chars! "source_cap_min",
    chars! "storage_cap_max",
    chars! "storage_cap_min",
    chars! "storage_discharge_depth",
    chars! "storage_initial",
    chars! "storage_loss",
    chars! "timestep_resolution",
    chars! "timestep_weights"]

def base_lookups_0 : List Raw :=
  plain [chars! "base_tech",
    chars! "carrier_in",
    chars! "carrier_out",
    chars! "carrier_export",
    chars! "cluster_first_timestep",
    chars! "definition_matrix",
    chars! "include_storage",
    chars! "cyclic_storage",
    chars! "sink_unit",
    chars! "source_unit",
    chars! "source_cap_equals_flow_cap",
    chars! "one_way",
    chars! "lookup_cluster_last_timestep",
    chars! "latitude",
    chars! "longitude"]

def base_vars_flow_cap : Raw :=
    { name := chars! "flow_cap",
      foreach := some [chars! "nodes", chars! "techs", chars! "carriers"],
      lower := some (chars! "flow_cap_min"),
      upper := some (chars! "flow_cap_max") }

def base_vars_link_flow_cap : Raw :=
    { name := chars! "link_flow_cap",
      foreach := some [chars! "techs"],
      cond := some (chars! "base_tech==transmission"),
      lower := some (chars! "0"),
      upper := some (chars! ".inf") }

def base_vars_flow_out : Raw :=
    { name := chars! "flow_out",
      foreach := some [chars! "nodes", chars! "techs", chars! "carriers", chars! "timesteps"],
      cond := some (chars! "carrier_out"),
      lower := some (chars! "0"),
      upper := some (chars! ".inf") }

def base_vars_flow_in : Raw :=
    { name := chars! "flow_in",
      foreach := some [chars! "nodes", chars! "techs", chars! "carriers", chars! "timesteps"],
      cond := some (chars! "carrier_in"),
      lower := some (chars! "0"),
      upper := some (chars! ".inf") }

def base_vars_flow_export : Raw :=
    { name := chars! "flow_export",
      foreach := some [chars! "nodes", chars! "techs", chars! "carriers", chars! "timesteps"],
      cond := some (chars! "carrier_export"),
      lower := some (chars! "export_min"),
      upper := some (chars! "export_max") }

def base_vars_area_use : Raw :=
    { name := chars! "area_use",
      foreach := some [chars! "nodes", chars! "techs"],
      cond := some (chars! "(area_use_min OR area_use_max OR area_use_per_flow_cap OR sink_unit==per_area OR source_unit==per_area)"),
      lower := some (chars! "area_use_min"),
      upper := some (chars! "area_use_max") }

def base_vars_source_use : Raw :=
    { name := chars! "source_use",
      foreach := some [chars! "nodes", chars! "techs", chars! "timesteps"],
      cond := some (chars! "base_tech==supply"),
      lower := some (chars! "0"),
      upper := some (chars! ".inf") }

def base_vars_source_cap : Raw :=
    { name := chars! "source_cap",
      foreach := some [chars! "nodes", chars! "techs"],
      cond := some (chars! "base_tech==supply"),
      lower := some (chars! "source_cap_min"),
      upper := some (chars! "source_cap_max") }

def base_vars_storage_cap : Raw :=
    { name := chars! "storage_cap",
      active := some true,
      foreach := some [chars! "nodes", chars! "techs"],
      cond := some (chars! "include_storage==True OR base_tech==storage"),
      lower := some (chars! "storage_cap_min"),
      upper := some (chars! "storage_cap_max"),
      domain := some (chars! "real") }

def base_vars_storage : Raw :=
    { name := chars! "storage",
      foreach := some [chars! "nodes", chars! "techs", chars! "timesteps"],
      cond := some (chars! "include_storage==True OR base_tech==storage"),
      lower := some (chars! "0"),
      upper := some (chars! ".inf") }

def base_vars_unmet_demand : Raw :=
    { name := chars! "unmet_demand",
      foreach := some [chars! "nodes", chars! "carriers", chars! "timesteps"],
      cond := some (chars! "config.ensure_feasibility==True"),
      lower := some (chars! "0"),
      upper := some (chars! ".inf") }

def base_vars_unused_supply : Raw :=
    { name := chars! "unused_supply",
      foreach := some [chars! "nodes", chars! "carriers", chars! "timesteps"],
      cond := some (chars! "config.ensure_feasibility==True"),
      lower := some (chars! "-.inf"),
      upper := some (chars! "0") }

def base_globals_flow_out_inc_eff : Raw :=
    { name := chars! "flow_out_inc_eff",
      foreach := some [chars! "nodes", chars! "techs", chars! "carriers", chars! "timesteps"],
      cond := some (chars! "flow_out"),
      equations := some [⟨some (chars! "base_tech==transmission"), chars! "flow_out / (\n  flow_out_eff * flow_out_parasitic_eff *\n  flow_out_eff_per_distance ** distance\n)"⟩, ⟨some (chars! "NOT base_tech==transmission"), chars! "flow_out / (flow_out_eff * flow_out_parasitic_eff)"⟩] }

def base_globals_flow_in_inc_eff : Raw :=
    { name := chars! "flow_in_inc_eff",
      foreach := some [chars! "nodes", chars! "techs", chars! "carriers", chars! "timesteps"],
      cond := some (chars! "flow_in"),
      equations := some [⟨some (chars! "base_tech==transmission"), chars! "flow_in * flow_in_eff * flow_in_eff_per_distance ** distance"⟩, ⟨some (chars! "NOT base_tech==transmission"), chars! "flow_in * flow_in_eff"⟩] }

def base_globals_cost_operation_variable : Raw :=
    { name := chars! "cost_operation_variable",
      foreach := some [chars! "nodes", chars! "techs", chars! "costs", chars! "timesteps"],
      cond := some (chars! "cost_export OR cost_flow_in OR cost_flow_out OR cost_source_use"),
      equations := some [⟨none, chars! "timestep_weights * ($cost_export + $cost_flow_out + $cost_flow_in)"⟩],
      subs := [(chars! "cost_export", [⟨none, chars! "sum(cost_export * flow_export, over=carriers)"⟩]), (chars! "cost_flow_in", [⟨some (chars! "base_tech==supply"), chars! "cost_source_use * source_use"⟩, ⟨some (chars! "NOT base_tech==supply"), chars! "sum(cost_flow_in * flow_in, over=carriers)"⟩]), (chars! "cost_flow_out", [⟨none, chars! "sum(cost_flow_out * flow_out, over=carriers)"⟩])] }

def base_globals_cost_investment_flow_cap : Raw :=
    { name := chars! "cost_investment_flow_cap",
      foreach := some [chars! "nodes", chars! "techs", chars! "carriers", chars! "costs"],
      cond := some (chars! "flow_cap AND (cost_flow_cap OR cost_flow_cap_per_distance)"),
      equations := some [⟨none, chars! "$cost_sum * flow_cap"⟩],
      subs := [(chars! "cost_sum", [⟨some (chars! "base_tech==transmission"), chars! "(cost_flow_cap + cost_flow_cap_per_distance * distance) * 0.5"⟩, ⟨some (chars! "NOT base_tech==transmission"), chars! "cost_flow_cap"⟩])] }

def base_globals_cost_investment_storage_cap : Raw :=
    { name := chars! "cost_investment_storage_cap",
      foreach := some [chars! "nodes", chars! "techs", chars! "costs"],
      cond := some (chars! "cost_storage_cap AND storage_cap"),
      equations := some [⟨none, chars! "cost_storage_cap * storage_cap"⟩] }

def base_globals_cost_investment_source_cap : Raw :=
    { name := chars! "cost_investment_source_cap",
      foreach := some [chars! "nodes", chars! "techs", chars! "costs"],
      cond := some (chars! "cost_source_cap AND source_cap"),
      equations := some [⟨none, chars! "cost_source_cap * source_cap"⟩] }

def base_globals_cost_investment_area_use : Raw :=
    { name := chars! "cost_investment_area_use",
      foreach := some [chars! "nodes", chars! "techs", chars! "costs"],
      cond := some (chars! "cost_area_use AND area_use"),
      equations := some [⟨none, chars! "cost_area_use * area_use"⟩] }

def base_globals_cost_investment : Raw :=
    { name := chars! "cost_investment",
      foreach := some [chars! "nodes", chars! "techs", chars! "costs"],
      cond := some (chars! "cost_investment_flow_cap OR cost_investment_storage_cap OR cost_investment_source_cap OR cost_investment_area_use"),
      equations := some [⟨none, chars! "sum(cost_investment_flow_cap, over=carriers) + cost_investment_storage_cap + cost_investment_source_cap + cost_investment_area_use"⟩] }

def base_globals_cost_investment_annualised : Raw :=
    { name := chars! "cost_investment_annualised",
      foreach := some [chars! "nodes", chars! "techs", chars! "costs"],
      cond := some (chars! "cost_investment"),
      equations := some [⟨none, chars! "$annualisation_weight * $depreciation_rate * cost_investment"⟩],
      subs := [(chars! "annualisation_weight", [⟨none, chars! "sum(timestep_resolution * timestep_weights, over=timesteps) / 8760"⟩]), (chars! "depreciation_rate", [⟨some (chars! "cost_depreciation_rate"), chars! "cost_depreciation_rate"⟩, ⟨some (chars! "NOT cost_depreciation_rate AND (NOT cost_interest_rate OR cost_interest_rate==0)"), chars! "1 / lifetime"⟩, ⟨some (chars! "NOT cost_depreciation_rate AND cost_interest_rate>0"), chars! "(cost_interest_rate * ((1 + cost_interest_rate) ** lifetime)) / (((1 + cost_interest_rate) ** lifetime) - 1)"⟩])] }

def base_globals_cost_operation_fixed : Raw :=
    { name := chars! "cost_operation_fixed",
      foreach := some [chars! "nodes", chars! "techs", chars! "costs"],
      cond := some (chars! "(cost_om_annual AND flow_cap) OR (cost_investment AND cost_om_annual_investment_fraction)"),
      equations := some [⟨none, chars! "$annualisation_weight * (\n  sum(cost_om_annual * flow_cap, over=carriers) +\n  cost_investment * cost_om_annual_investment_fraction\n)"⟩],
      subs := [(chars! "annualisation_weight", [⟨none, chars! "sum(timestep_resolution * timestep_weights, over=timesteps) / 8760"⟩])] }

def base_globals_cost : Raw :=
    { name := chars! "cost",
      active := some true,
      foreach := some [chars! "nodes", chars! "techs", chars! "costs"],
      cond := some (chars! "cost_investment_annualised OR cost_operation_variable OR cost_operation_fixed"),
      equations := some [⟨none, chars! "cost_investment_annualised + sum(cost_operation_variable, over=timesteps) + cost_operation_fixed"⟩] }

def base_constraints_flow_capacity_per_storage_capacity_min : Raw :=
    { name := chars! "flow_capacity_per_storage_capacity_min",
      foreach := some [chars! "nodes", chars! "techs", chars! "carriers"],
      cond := some (chars! "storage_cap AND flow_cap_per_storage_cap_min"),
      equations := some [⟨none, chars! "flow_cap >= storage_cap * flow_cap_per_storage_cap_min"⟩] }

def base_constraints_flow_capacity_per_storage_capacity_max : Raw :=
    { name := chars! "flow_capacity_per_storage_capacity_max",
      foreach := some [chars! "nodes", chars! "techs", chars! "carriers"],
      cond := some (chars! "storage_cap AND flow_cap_per_storage_cap_max"),
      equations := some [⟨none, chars! "flow_cap <= storage_cap * flow_cap_per_storage_cap_max"⟩] }

def base_constraints_source_capacity_equals_flow_capacity : Raw :=
    { name := chars! "source_capacity_equals_flow_capacity",
      foreach := some [chars! "nodes", chars! "techs", chars! "carriers"],
      cond := some (chars! "source_cap AND source_cap_equals_flow_cap==True"),
      equations := some [⟨none, chars! "source_cap == flow_cap"⟩] }

def base_constraints_force_zero_area_use : Raw :=
    { name := chars! "force_zero_area_use",
      foreach := some [chars! "nodes", chars! "techs"],
      cond := some (chars! "area_use AND flow_cap_max==0"),
      equations := some [⟨none, chars! "area_use == 0"⟩] }

def base_constraints_area_use_per_flow_capacity : Raw :=
    { name := chars! "area_use_per_flow_capacity",
      foreach := some [chars! "nodes", chars! "techs", chars! "carriers"],
      cond := some (chars! "area_use AND area_use_per_flow_cap"),
      equations := some [⟨none, chars! "area_use == flow_cap * area_use_per_flow_cap"⟩] }

def base_constraints_area_use_capacity_per_loc : Raw :=
    { name := chars! "area_use_capacity_per_loc",
      foreach := some [chars! "nodes"],
      cond := some (chars! "area_use AND available_area"),
      equations := some [⟨none, chars! "sum(area_use, over=techs) <= available_area"⟩] }

def base_constraints_flow_capacity_systemwide_max : Raw :=
    { name := chars! "flow_capacity_systemwide_max",
      foreach := some [chars! "techs", chars! "carriers"],
      cond := some (chars! "flow_cap_max_systemwide"),
      equations := some [⟨none, chars! "sum(flow_cap, over=nodes) <= flow_cap_max_systemwide"⟩] }

def base_constraints_flow_capacity_systemwide_min : Raw :=
    { name := chars! "flow_capacity_systemwide_min",
      foreach := some [chars! "techs", chars! "carriers"],
      cond := some (chars! "flow_cap_min_systemwide"),
      equations := some [⟨none, chars! "sum(flow_cap, over=nodes) >= flow_cap_min_systemwide"⟩] }

def base_constraints_balance_conversion : Raw :=
    { name := chars! "balance_conversion",
      foreach := some [chars! "nodes", chars! "techs", chars! "timesteps"],
      cond := some (chars! "base_tech==conversion AND NOT include_storage==true"),
      equations := some [⟨none, chars! "sum(flow_out_inc_eff, over=carriers) == sum(flow_in_inc_eff, over=carriers)"⟩] }

def base_constraints_flow_out_max : Raw :=
    { name := chars! "flow_out_max",
      foreach := some [chars! "nodes", chars! "techs", chars! "carriers", chars! "timesteps"],
      cond := some (chars! "carrier_out"),
      equations := some [⟨none, chars! "flow_out <= flow_cap * timestep_resolution * flow_out_parasitic_eff"⟩] }

def base_constraints_flow_out_min : Raw :=
    { name := chars! "flow_out_min",
      foreach := some [chars! "nodes", chars! "techs", chars! "carriers", chars! "timesteps"],
      cond := some (chars! "flow_out_min_relative"),
      equations := some [⟨none, chars! "flow_out >= flow_cap * timestep_resolution * flow_out_min_relative"⟩] }

def base_constraints_flow_in_max : Raw :=
    { name := chars! "flow_in_max",
      foreach := some [chars! "nodes", chars! "techs", chars! "carriers", chars! "timesteps"],
      cond := some (chars! "carrier_in"),
      equations := some [⟨none, chars! "flow_in <= flow_cap * timestep_resolution"⟩] }

def base_constraints_source_max : Raw :=
    { name := chars! "source_max",
      foreach := some [chars! "nodes", chars! "techs", chars! "timesteps"],
      cond := some (chars! "source_cap"),
      equations := some [⟨none, chars! "source_use <= timestep_resolution * source_cap"⟩] }

def base_constraints_storage_max : Raw :=
    { name := chars! "storage_max",
      foreach := some [chars! "nodes", chars! "techs", chars! "timesteps"],
      cond := some (chars! "storage"),
      equations := some [⟨none, chars! "storage <= storage_cap"⟩] }

def base_constraints_storage_discharge_depth_limit : Raw :=
    { name := chars! "storage_discharge_depth_limit",
      foreach := some [chars! "nodes", chars! "techs", chars! "timesteps"],
      cond := some (chars! "storage AND storage_discharge_depth"),
      equations := some [⟨none, chars! "storage - storage_discharge_depth * storage_cap >= 0"⟩] }

def base_constraints_system_balance : Raw :=
    { name := chars! "system_balance",
      foreach := some [chars! "nodes", chars! "carriers", chars! "timesteps"],
      equations := some [⟨none, chars! "sum(flow_out, over=techs) - sum(flow_in, over=techs) - sum(flow_export, over=techs) + (unmet_demand + unused_supply) == 0"⟩] }

def base_constraints_balance_demand : Raw :=
    { name := chars! "balance_demand",
      foreach := some [chars! "nodes", chars! "techs", chars! "carriers", chars! "timesteps"],
      cond := some (chars! "base_tech==demand"),
      equations := some [⟨some (chars! "sink_use_equals"), chars! "flow_in_inc_eff == sink_use_equals * $sink_scaler"⟩, ⟨some (chars! "NOT sink_use_equals AND sink_use_max"), chars! "flow_in_inc_eff <= sink_use_max * $sink_scaler"⟩],
      subs := [(chars! "sink_scaler", [⟨some (chars! "sink_unit==per_area"), chars! "area_use"⟩, ⟨some (chars! "sink_unit==per_cap"), chars! "sum(flow_cap, over=carriers)"⟩, ⟨some (chars! "sink_unit==absolute"), chars! "1"⟩])] }

def base_constraints_balance_demand_min_use : Raw :=
    { name := chars! "balance_demand_min_use",
      foreach := some [chars! "nodes", chars! "techs", chars! "carriers", chars! "timesteps"],
      cond := some (chars! "sink_use_min AND NOT sink_use_equals AND base_tech==demand"),
      equations := some [⟨none, chars! "flow_in_inc_eff >= sink_use_min * $sink_scaler"⟩],
      subs := [(chars! "sink_scaler", [⟨some (chars! "sink_unit==per_area"), chars! "area_use"⟩, ⟨some (chars! "sink_unit==per_cap"), chars! "sum(flow_cap, over=carriers)"⟩, ⟨some (chars! "sink_unit==absolute"), chars! "1"⟩])] }

def base_constraints_balance_supply_no_storage : Raw :=
    { name := chars! "balance_supply_no_storage",
      foreach := some [chars! "nodes", chars! "techs", chars! "carriers", chars! "timesteps"],
      cond := some (chars! "base_tech==supply AND NOT include_storage==True"),
      equations := some [⟨none, chars! "flow_out_inc_eff == source_use * source_eff"⟩] }

def base_constraints_balance_supply_with_storage : Raw :=
    { name := chars! "balance_supply_with_storage",
      foreach := some [chars! "nodes", chars! "techs", chars! "carriers", chars! "timesteps"],
      cond := some (chars! "storage AND base_tech==supply"),
      equations := some [⟨none, chars! "storage == $storage_previous_step + source_use * source_eff - flow_out_inc_eff"⟩],
      subs := [(chars! "storage_previous_step", [⟨some (chars! "timesteps==get_val_at_index(timesteps=0) AND NOT cyclic_storage==True"), chars! "storage_initial * storage_cap"⟩, ⟨some (chars! "(\n  (timesteps==get_val_at_index(timesteps=0) AND cyclic_storage==True)\n  OR NOT timesteps==get_val_at_index(timesteps=0)\n) AND NOT cluster_first_timestep==True"), chars! "(1 - storage_loss) ** roll(timestep_resolution, timesteps=1) * roll(storage, timesteps=1)"⟩, ⟨some (chars! "cluster_first_timestep==True AND NOT (timesteps==get_val_at_index(timesteps=0) AND NOT cyclic_storage==True)"), chars! "(1 - storage_loss) ** select_from_lookup_arrays(timestep_resolution, timesteps=lookup_cluster_last_timestep) * select_from_lookup_arrays(storage, timesteps=lookup_cluster_last_timestep)"⟩])] }

def base_constraints_source_availability_supply : Raw :=
    { name := chars! "source_availability_supply",
      foreach := some [chars! "nodes", chars! "techs", chars! "timesteps"],
      cond := some (chars! "source_use AND (source_use_equals OR source_use_max)"),
      equations := some [⟨some (chars! "source_use_equals"), chars! "source_use == source_use_equals * $source_scaler"⟩, ⟨some (chars! "NOT source_use_equals AND source_use_max"), chars! "source_use <= source_use_max * $source_scaler"⟩],
      subs := [(chars! "source_scaler", [⟨some (chars! "source_unit==per_area"), chars! "area_use"⟩, ⟨some (chars! "source_unit==per_cap"), chars! "sum(flow_cap, over=carriers)"⟩, ⟨some (chars! "source_unit==absolute"), chars! "1"⟩])] }

def base_constraints_balance_supply_min_use : Raw :=
    { name := chars! "balance_supply_min_use",
      foreach := some [chars! "nodes", chars! "techs", chars! "timesteps"],
      cond := some (chars! "source_use_min AND NOT source_use_equals AND base_tech==supply"),
      equations := some [⟨none, chars! "source_use >= source_use_min * $source_scaler"⟩],
      subs := [(chars! "source_scaler", [⟨some (chars! "source_unit==per_area"), chars! "area_use"⟩, ⟨some (chars! "source_unit==per_cap"), chars! "sum(flow_cap, over=carriers)"⟩, ⟨some (chars! "source_unit==absolute"), chars! "1"⟩])] }

def base_constraints_balance_storage : Raw :=
    { name := chars! "balance_storage",
      foreach := some [chars! "nodes", chars! "techs", chars! "timesteps"],
      cond := some (chars! "(include_storage==true or base_tech==storage) AND NOT (base_tech==supply OR base_tech==demand)"),
      equations := some [⟨none, chars! "storage == $storage_previous_step -\n  sum(flow_out_inc_eff, over=carriers) + sum(flow_in_inc_eff, over=carriers)"⟩],
      subs := [(chars! "storage_previous_step", [⟨some (chars! "timesteps==get_val_at_index(timesteps=0) AND NOT cyclic_storage==True"), chars! "storage_initial * storage_cap"⟩, ⟨some (chars! "(\n  (timesteps==get_val_at_index(timesteps=0) AND cyclic_storage==True)\n  OR NOT timesteps==get_val_at_index(timesteps=0)\n) AND NOT cluster_first_timestep==True"), chars! "(1 - storage_loss) ** roll(timestep_resolution, timesteps=1) * roll(storage, timesteps=1)"⟩, ⟨some (chars! "cluster_first_timestep==True AND NOT (timesteps==get_val_at_index(timesteps=0) AND NOT cyclic_storage==True)"), chars! "(1 - storage_loss) ** select_from_lookup_arrays(timestep_resolution, timesteps=lookup_cluster_last_timestep) * select_from_lookup_arrays(storage, timesteps=lookup_cluster_last_timestep)"⟩])] }

def base_constraints_set_storage_initial : Raw :=
    { name := chars! "set_storage_initial",
      active := some true,
      foreach := some [chars! "nodes", chars! "techs"],
      cond := some (chars! "storage AND storage_initial AND cyclic_storage==True"),
      equations := some [⟨none, chars! "storage[timesteps=$final_step] * (\n  (1 - storage_loss) ** timestep_resolution[timesteps=$final_step]\n) == storage_initial * storage_cap"⟩],
      slices := [(chars! "final_step", [⟨none, chars! "get_val_at_index(timesteps=-1)"⟩])] }

def base_constraints_balance_transmission : Raw :=
    { name := chars! "balance_transmission",
      foreach := some [chars! "techs", chars! "timesteps"],
      cond := some (chars! "base_tech==transmission"),
      equations := some [⟨none, chars! "sum(flow_out_inc_eff, over=[nodes, carriers]) == sum(flow_in_inc_eff, over=[nodes, carriers])"⟩] }

def base_constraints_symmetric_transmission : Raw :=
    { name := chars! "symmetric_transmission",
      foreach := some [chars! "nodes", chars! "techs"],
      cond := some (chars! "base_tech==transmission"),
      equations := some [⟨none, chars! "sum(flow_cap, over=carriers) == link_flow_cap"⟩] }

def base_constraints_export_balance : Raw :=
    { name := chars! "export_balance",
      foreach := some [chars! "nodes", chars! "techs", chars! "carriers", chars! "timesteps"],
      cond := some (chars! "flow_export"),
      equations := some [⟨none, chars! "flow_out >= flow_export"⟩] }

def base_constraints_ramping_up : Raw :=
    { name := chars! "ramping_up",
      foreach := some [chars! "nodes", chars! "techs", chars! "carriers", chars! "timesteps"],
      cond := some (chars! "flow_ramping AND NOT timesteps==get_val_at_index(timesteps=0)"),
      equations := some [⟨none, chars! "$flow - roll($flow, timesteps=1) <= flow_ramping * flow_cap"⟩],
      subs := [(chars! "flow", [⟨some (chars! "carrier_out AND NOT carrier_in"), chars! "flow_out / timestep_resolution"⟩, ⟨some (chars! "carrier_in AND NOT carrier_out"), chars! "flow_in / timestep_resolution"⟩, ⟨some (chars! "carrier_in AND carrier_out"), chars! "(flow_out - flow_in) / timestep_resolution"⟩])] }

def base_constraints_ramping_down : Raw :=
    { name := chars! "ramping_down",
      foreach := some [chars! "nodes", chars! "techs", chars! "carriers", chars! "timesteps"],
      cond := some (chars! "flow_ramping AND NOT timesteps==get_val_at_index(timesteps=0)"),
      equations := some [⟨none, chars! "-1 * flow_ramping * flow_cap <= $flow - roll($flow, timesteps=1)"⟩],
      subs := [(chars! "flow", [⟨some (chars! "carrier_out AND NOT carrier_in"), chars! "flow_out / timestep_resolution"⟩, ⟨some (chars! "carrier_in AND NOT carrier_out"), chars! "flow_in / timestep_resolution"⟩, ⟨some (chars! "carrier_in AND carrier_out"), chars! "(flow_out - flow_in) / timestep_resolution"⟩])] }

def base_objectives_min_cost_optimisation : Raw :=
    { name := chars! "min_cost_optimisation",
      active := some true,
      equations := some [⟨none, chars! "sum(\n  sum(cost, over=[nodes, techs])\n  * objective_cost_weights,\n  over=costs\n) + $unmet_demand"⟩],
      subs := [(chars! "unmet_demand", [⟨none, chars! "sum(\n  sum(unmet_demand - unused_supply, over=[carriers, nodes])\n  * timestep_weights,\n  over=timesteps\n) * bigM"⟩])],
      sense := some (chars! "minimise") }

def base_postprocessed_capacity_factor : Raw :=
    { name := chars! "capacity_factor",
      foreach := some [chars! "nodes", chars! "techs", chars! "carriers", chars! "timesteps"],
      cond := some (chars! "flow_out AND flow_cap>0"),
      equations := some [⟨none, chars! "flow_out / (flow_cap * timestep_resolution)"⟩] }

def base_postprocessed_systemwide_capacity_factor : Raw :=
    { name := chars! "systemwide_capacity_factor",
      foreach := some [chars! "techs", chars! "carriers"],
      cond := some (chars! "flow_out AND flow_cap>0"),
      equations := some [⟨none, chars! "sum(flow_out * timestep_weights, over=[nodes, timesteps]) / (sum(flow_cap, over=nodes) * sum(timestep_resolution * timestep_weights, over=timesteps))"⟩] }

def base_postprocessed_total_generation : Raw :=
    { name := chars! "total_generation",
      foreach := some [chars! "techs", chars! "carriers"],
      cond := some (chars! "flow_out AND NOT base_tech==demand"),
      equations := some [⟨none, chars! "sum(flow_out + flow_export * timestep_weights, over=[nodes, timesteps])"⟩] }

def base_postprocessed_systemwide_levelised_cost : Raw :=
    { name := chars! "systemwide_levelised_cost",
      foreach := some [chars! "techs", chars! "carriers", chars! "costs"],
      cond := some (chars! "total_generation>0 AND any(cost, over=nodes)"),
      equations := some [⟨none, chars! "sum(cost, over=nodes) / total_generation"⟩] }

def base_postprocessed_total_levelised_cost : Raw :=
    { name := chars! "total_levelised_cost",
      foreach := some [chars! "carriers", chars! "costs"],
      cond := some (chars! "sum(total_generation, over=techs)>0"),
      equations := some [⟨none, chars! "sum(cost, over=[nodes, techs]) / sum(total_generation, over=techs)"⟩] }

def base_postprocessed_unmet_sum : Raw :=
    { name := chars! "unmet_sum",
      foreach := some [chars! "nodes", chars! "carriers", chars! "timesteps"],
      cond := some (chars! "config.ensure_feasibility == True"),
      equations := some [⟨none, chars! "unmet_demand + unused_supply"⟩] }

def base_postprocessed_curtailment : Raw :=
    { name := chars! "curtailment",
      foreach := some [chars! "nodes", chars! "techs", chars! "timesteps"],
      cond := some (chars! "base_tech==supply AND source_use_max>0 AND NOT source_use_max==inf AND source_cap>0"),
      equations := some [⟨none, chars! "1 - (source_use / (source_use_max * $source_scaler))"⟩],
      subs := [(chars! "source_scaler", [⟨some (chars! "source_unit==per_area"), chars! "area_use"⟩, ⟨some (chars! "source_unit==per_cap"), chars! "sum(flow_cap, over=carriers)"⟩, ⟨some (chars! "source_unit==absolute"), chars! "1"⟩])] }

def base_postprocessed_total_curtailment : Raw :=
    { name := chars! "total_curtailment",
      foreach := some [chars! "nodes", chars! "techs"],
      cond := some (chars! "base_tech==supply AND source_use_max AND source_cap>0"),
      equations := some [⟨none, chars! "1 - (sum(source_use, over=timesteps) / sum(source_use_max * $source_scaler, over=timesteps))"⟩],
      subs := [(chars! "source_scaler", [⟨some (chars! "source_unit==per_area"), chars! "area_use"⟩, ⟨some (chars! "source_unit==per_cap"), chars! "sum(flow_cap, over=carriers)"⟩, ⟨some (chars! "source_unit==absolute"), chars! "1"⟩])] }

def base_checks_must_have_base : Raw :=
    { name := chars! "must_have_base",
      cond := some (chars! "NOT base_tech"),
      message := some (chars! "An abstract `base_tech` must be defined for every technology at every node."),
      errors := some (chars! "raise") }

def base_checks_distance_only_for_transmission : Raw :=
    { name := chars! "distance_only_for_transmission",
      cond := some (chars! "NOT base_tech==transmission AND (distance or flow_in_eff_per_distance or flow_out_eff_per_distance or cost_flow_cap_per_distance)"),
      message := some (chars! "Only transmission technologies can define `distance` or `..._per_distance`."),
      errors := some (chars! "raise") }

def base_checks_unbounded_flow_cap_cost : Raw :=
    { name := chars! "unbounded_flow_cap_cost",
      cond := some (chars! "cost_flow_cap<0 AND NOT flow_cap_max"),
      message := some (chars! "Cannot have a negative `cost_flow_cap` as there is an unset corresponding `flow_cap_max` constraint"),
      errors := some (chars! "raise") }

def base_checks_unbounded_storage_cap_cost : Raw :=
    { name := chars! "unbounded_storage_cap_cost",
      cond := some (chars! "cost_storage_cap<0 AND NOT storage_cap_max"),
      message := some (chars! "Cannot have a negative `cost_storage_cap` as there is an unset corresponding `storage_cap_max` constraint"),
      errors := some (chars! "raise") }

def base_checks_unbounded_area_use_cost : Raw :=
    { name := chars! "unbounded_area_use_cost",
      cond := some (chars! "cost_area_use<0 AND NOT area_use_max"),
      message := some (chars! "Cannot have a negative `cost_area_use` as there is an unset corresponding `area_use_max` constraint"),
      errors := some (chars! "raise") }

def base_checks_unbounded_source_use_cost : Raw :=
    { name := chars! "unbounded_source_use_cost",
      cond := some (chars! "cost_source_cap<0 AND NOT source_cap_max"),
      message := some (chars! "Cannot have a negative `cost_source_cap` as there is an unset corresponding `source_cap_max` constraint"),
      errors := some (chars! "raise") }

def base_checks_finite_source_use : Raw :=
    { name := chars! "finite_source_use",
      cond := some (chars! "source_use_equals==inf or sink_use_equals==inf"),
      message := some (chars! "Cannot include infinite values in `source_use_equals`/`sink_use_equals`"),
      errors := some (chars! "raise") }

def base_checks_all_or_nothing_lat_lon : Raw :=
    { name := chars! "all_or_nothing_lat_lon",
      cond := some (chars! "(any(latitude, over=nodes) or any(longitude, over=nodes)) AND NOT (latitude or longitude)"),
      message := some (chars! "Must define node latitude and longitude for _all_ nodes or _no_ nodes."),
      errors := some (chars! "raise") }

def base_checks_export_only_for_outflows : Raw :=
    { name := chars! "export_only_for_outflows",
      cond := some (chars! "carrier_export AND NOT any(carrier_out, over=nodes)"),
      message := some (chars! "Export carriers must be one of the technology outflow carriers."),
      errors := some (chars! "raise") }

def base_checks_storage_initial_max : Raw :=
    { name := chars! "storage_initial_max",
      cond := some (chars! "storage_initial AND (storage_initial<0 OR storage_initial>1)"),
      message := some (chars! "storage_initial is a fraction, requiring values within the interval [0, 1]."),
      errors := some (chars! "raise") }

def base_checks_flow_in_for_supply_tech : Raw :=
    { name := chars! "flow_in_for_supply_tech",
      cond := some (chars! "base_tech==supply AND cost_flow_in"),
      message := some (chars! "`cost_flow_in` does not apply to `supply` technologies. Use `cost_source_use` instead."),
      errors := some (chars! "warn") }

def base_checks_flow_out_for_demand_tech : Raw :=
    { name := chars! "flow_out_for_demand_tech",
      cond := some (chars! "base_tech==demand AND cost_flow_out"),
      message := some (chars! "`cost_flow_out` does not apply to `demand` technologies. Use `cost_flow_in` instead."),
      errors := some (chars! "warn") }

def base_checks_no_storage_discharge_depth_when_clustering : Raw :=
    { name := chars! "no_storage_discharge_depth_when_clustering",
      cond := some (chars! "storage_discharge_depth AND lookup_cluster_last_timestep"),
      message := some (chars! "storage_discharge_depth will currently have no effect when time clustering is active."),
      errors := some (chars! "warn") }

def base_checks_cyclic_storage_needs_inter_cluster : Raw :=
    { name := chars! "cyclic_storage_needs_inter_cluster",
      cond := some (chars! "cyclic_storage AND lookup_cluster_last_timestep"),
      message := some (chars! "Include the `storage_inter_cluster_storage` pre-defined math to allow cyclic storage alongside timeseries clustering."),
      errors := some (chars! "raise") }

/-- `base.yaml`. -/
def baseFile : File where
  dimensions := base_dimensions_0
  parameters := base_parameters_0 ++ base_parameters_1 ++ base_parameters_2
  lookups := base_lookups_0
  vars := [
    base_vars_flow_cap,
    base_vars_link_flow_cap,
    base_vars_flow_out,
    base_vars_flow_in,
    base_vars_flow_export,
    base_vars_area_use,
    base_vars_source_use,
    base_vars_source_cap,
    base_vars_storage_cap,
    base_vars_storage,
    base_vars_unmet_demand,
    base_vars_unused_supply]
  globals := [
    base_globals_flow_out_inc_eff,
    base_globals_flow_in_inc_eff,
    base_globals_cost_operation_variable,
    base_globals_cost_investment_flow_cap,
    base_globals_cost_investment_storage_cap,
    base_globals_cost_investment_source_cap,
    base_globals_cost_investment_area_use,
    base_globals_cost_investment,
    base_globals_cost_investment_annualised,
    base_globals_cost_operation_fixed,
    base_globals_cost]
  constraints := [
    base_constraints_flow_capacity_per_storage_capacity_min,
    base_constraints_flow_capacity_per_storage_capacity_max,
    base_constraints_source_capacity_equals_flow_capacity,
    base_constraints_force_zero_area_use,
    base_constraints_area_use_per_flow_capacity,
    base_constraints_area_use_capacity_per_loc,
    base_constraints_flow_capacity_systemwide_max,
    base_constraints_flow_capacity_systemwide_min,
    base_constraints_balance_conversion,
    base_constraints_flow_out_max,
    base_constraints_flow_out_min,
    base_constraints_flow_in_max,
    base_constraints_source_max,
    base_constraints_storage_max,
    base_constraints_storage_discharge_depth_limit,
    base_constraints_system_balance,
    base_constraints_balance_demand,
    base_constraints_balance_demand_min_use,
    base_constraints_balance_supply_no_storage,
    base_constraints_balance_supply_with_storage,
    base_constraints_source_availability_supply,
    base_constraints_balance_supply_min_use,
    base_constraints_balance_storage,
    base_constraints_set_storage_initial,
    base_constraints_balance_transmission,
    base_constraints_symmetric_transmission,
    base_constraints_export_balance,
    base_constraints_ramping_up,
    base_constraints_ramping_down]
  objectives := [
    base_objectives_min_cost_optimisation]
  postprocessed := [
    base_postprocessed_capacity_factor,
    base_postprocessed_systemwide_capacity_factor,
    base_postprocessed_total_generation,
    base_postprocessed_systemwide_levelised_cost,
    base_postprocessed_total_levelised_cost,
    base_postprocessed_unmet_sum,
    base_postprocessed_curtailment,
    base_postprocessed_total_curtailment]
  checks := [
    base_checks_must_have_base,
    base_checks_distance_only_for_transmission,
    base_checks_unbounded_flow_cap_cost,
    base_checks_unbounded_storage_cap_cost,
    base_checks_unbounded_area_use_cost,
    base_checks_unbounded_source_use_cost,
    base_checks_finite_source_use,
    base_checks_all_or_nothing_lat_lon,
    base_checks_export_only_for_outflows,
    base_checks_storage_initial_max,
    base_checks_flow_in_for_supply_tech,
    base_checks_flow_out_for_demand_tech,
    base_checks_no_storage_discharge_depth_when_clustering,
    base_checks_cyclic_storage_needs_inter_cluster]

/-! ### `milp.yaml` -/

def milp_parameters_0 : List Raw :=
  plain [chars! "flow_cap_per_unit",
    chars! "purchased_units_min_systemwide",
    chars! "purchased_units_max_systemwide",
    chars! "purchased_units_min",
    chars! "purchased_units_max",
    chars! "storage_cap_per_unit",
    chars! "cost_purchase_per_distance",
    chars! "cost_purchase",
    chars! "flow_cap_min",
    chars! "flow_cap_min_systemwide",
    chars! "flow_out_min_relative"]

def milp_lookups_0 : List Raw :=
  plain [chars! "cap_method",
    chars! "integer_dispatch",
    chars! "force_async_flow"]

def milp_vars_purchased_units : Raw :=
    { name := chars! "purchased_units",
      foreach := some [chars! "nodes", chars! "techs"],
      cond := some (chars! "cap_method==integer"),
      lower := some (chars! "purchased_units_min"),
      upper := some (chars! "purchased_units_max"),
      domain := some (chars! "integer") }

def milp_vars_operating_units : Raw :=
    { name := chars! "operating_units",
      foreach := some [chars! "nodes", chars! "techs", chars! "timesteps"],
      cond := some (chars! "integer_dispatch==True AND cap_method==integer"),
      lower := some (chars! "0"),
      upper := some (chars! ".inf"),
      domain := some (chars! "integer") }

def milp_vars_async_flow_switch : Raw :=
    { name := chars! "async_flow_switch",
      foreach := some [chars! "nodes", chars! "techs", chars! "timesteps"],
      cond := some (chars! "force_async_flow==True"),
      lower := some (chars! "0"),
      upper := some (chars! "1"),
      domain := some (chars! "integer") }

def milp_vars_available_flow_cap : Raw :=
    { name := chars! "available_flow_cap",
      foreach := some [chars! "nodes", chars! "techs", chars! "carriers", chars! "timesteps"],
      cond := some (chars! "integer_dispatch==True AND flow_cap_max AND NOT flow_cap_per_unit"),
      lower := some (chars! "0"),
      upper := some (chars! ".inf") }

def milp_vars_flow_cap : Raw :=
    { name := chars! "flow_cap",
      lower := some (chars! "0") }

def milp_vars_area_use : Raw :=
    { name := chars! "area_use",
      lower := some (chars! "0") }

def milp_vars_source_cap : Raw :=
    { name := chars! "source_cap",
      lower := some (chars! "0") }

def milp_vars_storage_cap : Raw :=
    { name := chars! "storage_cap",
      lower := some (chars! "0") }

def milp_globals_cost_investment_purchase : Raw :=
    { name := chars! "cost_investment_purchase",
      foreach := some [chars! "nodes", chars! "techs", chars! "costs"],
      cond := some (chars! "cost_purchase AND purchased_units"),
      equations := some [⟨some (chars! "base_tech==transmission"), chars! "(cost_purchase + cost_purchase_per_distance * distance) * purchased_units * 0.5"⟩, ⟨some (chars! "NOT base_tech==transmission"), chars! "cost_purchase * purchased_units"⟩],
      order := some (chars! "-1") }

def milp_globals_cost_investment : Raw :=
    { name := chars! "cost_investment",
      cond := some (chars! "cost_investment_flow_cap OR cost_investment_storage_cap OR cost_investment_source_cap OR cost_investment_area_use OR cost_investment_purchase"),
      equations := some [⟨none, chars! "sum(cost_investment_flow_cap, over=carriers) + cost_investment_storage_cap + cost_investment_source_cap + cost_investment_area_use + cost_investment_purchase"⟩] }

def milp_constraints_unit_commitment_milp : Raw :=
    { name := chars! "unit_commitment_milp",
      foreach := some [chars! "nodes", chars! "techs", chars! "timesteps"],
      cond := some (chars! "operating_units AND purchased_units"),
      equations := some [⟨none, chars! "operating_units <= purchased_units"⟩] }

def milp_constraints_flow_out_max_milp : Raw :=
    { name := chars! "flow_out_max_milp",
      foreach := some [chars! "nodes", chars! "techs", chars! "carriers", chars! "timesteps"],
      cond := some (chars! "flow_out AND operating_units AND flow_cap_per_unit"),
      equations := some [⟨none, chars! "flow_out <= operating_units * timestep_resolution * flow_cap_per_unit * flow_out_parasitic_eff"⟩] }

def milp_constraints_flow_in_max_milp : Raw :=
    { name := chars! "flow_in_max_milp",
      foreach := some [chars! "nodes", chars! "techs", chars! "carriers", chars! "timesteps"],
      cond := some (chars! "flow_in AND operating_units AND flow_cap_per_unit"),
      equations := some [⟨none, chars! "flow_in <= operating_units * timestep_resolution * flow_cap_per_unit"⟩] }

def milp_constraints_flow_out_min_milp : Raw :=
    { name := chars! "flow_out_min_milp",
      foreach := some [chars! "nodes", chars! "techs", chars! "carriers", chars! "timesteps"],
      cond := some (chars! "flow_out AND operating_units AND flow_out_min_relative"),
      equations := some [⟨some (chars! "flow_cap_per_unit"), chars! "flow_out >= operating_units * timestep_resolution * flow_cap_per_unit * flow_out_min_relative"⟩, ⟨some (chars! "available_flow_cap"), chars! "flow_out >= available_flow_cap * timestep_resolution * flow_out_min_relative"⟩] }

def milp_constraints_storage_capacity_units_milp : Raw :=
    { name := chars! "storage_capacity_units_milp",
      foreach := some [chars! "nodes", chars! "techs"],
      cond := some (chars! "storage AND purchased_units AND storage_cap_per_unit"),
      equations := some [⟨none, chars! "storage_cap == purchased_units * storage_cap_per_unit"⟩] }

def milp_constraints_flow_capacity_units_milp : Raw :=
    { name := chars! "flow_capacity_units_milp",
      foreach := some [chars! "nodes", chars! "techs", chars! "carriers"],
      cond := some (chars! "purchased_units AND flow_cap_per_unit"),
      equations := some [⟨none, chars! "flow_cap == purchased_units * flow_cap_per_unit"⟩] }

def milp_constraints_flow_capacity_max_purchase_milp : Raw :=
    { name := chars! "flow_capacity_max_purchase_milp",
      foreach := some [chars! "nodes", chars! "techs", chars! "carriers"],
      cond := some (chars! "purchased_units"),
      equations := some [⟨some (chars! "flow_cap_max"), chars! "flow_cap <= flow_cap_max * purchased_units"⟩, ⟨some (chars! "NOT flow_cap_max"), chars! "flow_cap <= bigM * purchased_units"⟩] }

def milp_constraints_storage_capacity_max_purchase_milp : Raw :=
    { name := chars! "storage_capacity_max_purchase_milp",
      foreach := some [chars! "nodes", chars! "techs"],
      cond := some (chars! "purchased_units AND storage_cap_max"),
      equations := some [⟨none, chars! "storage_cap <= storage_cap_max * purchased_units"⟩] }

def milp_constraints_unit_capacity_max_systemwide_milp : Raw :=
    { name := chars! "unit_capacity_max_systemwide_milp",
      foreach := some [chars! "techs"],
      cond := some (chars! "purchased_units AND purchased_units_max_systemwide"),
      equations := some [⟨none, chars! "sum(purchased_units, over=nodes) <= purchased_units_max_systemwide"⟩] }

def milp_constraints_unit_capacity_min_systemwide_milp : Raw :=
    { name := chars! "unit_capacity_min_systemwide_milp",
      foreach := some [chars! "techs"],
      cond := some (chars! "purchased_units AND purchased_units_max_systemwide"),
      equations := some [⟨none, chars! "sum(purchased_units, over=nodes) >= purchased_units_min_systemwide"⟩] }

def milp_constraints_async_flow_in_milp : Raw :=
    { name := chars! "async_flow_in_milp",
      foreach := some [chars! "nodes", chars! "techs", chars! "timesteps"],
      cond := some (chars! "async_flow_switch"),
      equations := some [⟨none, chars! "sum(flow_in, over=carriers) <= (1 - async_flow_switch) * bigM"⟩] }

def milp_constraints_async_flow_out_milp : Raw :=
    { name := chars! "async_flow_out_milp",
      foreach := some [chars! "nodes", chars! "techs", chars! "timesteps"],
      cond := some (chars! "async_flow_switch"),
      equations := some [⟨none, chars! "sum(flow_out, over=carriers) <= async_flow_switch * bigM"⟩] }

def milp_constraints_available_flow_cap_continuous : Raw :=
    { name := chars! "available_flow_cap_continuous",
      foreach := some [chars! "nodes", chars! "techs", chars! "carriers", chars! "timesteps"],
      cond := some (chars! "available_flow_cap"),
      equations := some [⟨none, chars! "available_flow_cap <= flow_cap"⟩] }

def milp_constraints_available_flow_cap_binary : Raw :=
    { name := chars! "available_flow_cap_binary",
      foreach := some [chars! "nodes", chars! "techs", chars! "carriers", chars! "timesteps"],
      cond := some (chars! "available_flow_cap"),
      equations := some [⟨none, chars! "available_flow_cap <= flow_cap_max * operating_units"⟩] }

def milp_constraints_available_flow_cap_max_binary_continuous_switch : Raw :=
    { name := chars! "available_flow_cap_max_binary_continuous_switch",
      foreach := some [chars! "nodes", chars! "techs", chars! "carriers", chars! "timesteps"],
      cond := some (chars! "available_flow_cap"),
      equations := some [⟨none, chars! "available_flow_cap >= flow_cap + ((operating_units - purchased_units) * flow_cap_max)"⟩] }

def milp_constraints_flow_capacity_minimum : Raw :=
    { name := chars! "flow_capacity_minimum",
      foreach := some [chars! "nodes", chars! "techs", chars! "carriers"],
      cond := some (chars! "flow_cap_min"),
      equations := some [⟨some (chars! "NOT purchased_units"), chars! "flow_cap >= flow_cap_min"⟩, ⟨some (chars! "purchased_units"), chars! "flow_cap >= flow_cap_min * purchased_units"⟩] }

def milp_constraints_storage_capacity_minimum : Raw :=
    { name := chars! "storage_capacity_minimum",
      foreach := some [chars! "nodes", chars! "techs"],
      cond := some (chars! "storage_cap_min"),
      equations := some [⟨some (chars! "NOT purchased_units"), chars! "storage_cap >= storage_cap_min"⟩, ⟨some (chars! "purchased_units"), chars! "storage_cap >= storage_cap_min * purchased_units"⟩] }

def milp_constraints_area_use_minimum : Raw :=
    { name := chars! "area_use_minimum",
      foreach := some [chars! "nodes", chars! "techs"],
      cond := some (chars! "area_use_min"),
      equations := some [⟨some (chars! "NOT purchased_units"), chars! "area_use >= area_use_min"⟩, ⟨some (chars! "purchased_units"), chars! "area_use >= area_use_min * purchased_units"⟩] }

def milp_constraints_source_capacity_minimum : Raw :=
    { name := chars! "source_capacity_minimum",
      foreach := some [chars! "nodes", chars! "techs"],
      cond := some (chars! "base_tech==supply AND source_cap_min"),
      equations := some [⟨some (chars! "NOT purchased_units"), chars! "source_cap >= source_cap_min"⟩, ⟨some (chars! "purchased_units"), chars! "source_cap >= source_cap_min * purchased_units"⟩] }

def milp_constraints_flow_out_max : Raw :=
    { name := chars! "flow_out_max",
      cond := some (chars! "carrier_out AND NOT operating_units") }

def milp_constraints_flow_out_min : Raw :=
    { name := chars! "flow_out_min",
      cond := some (chars! "flow_out_min_relative AND NOT operating_units") }

def milp_constraints_flow_in_max : Raw :=
    { name := chars! "flow_in_max",
      cond := some (chars! "carrier_in AND NOT operating_units") }

def milp_constraints_flow_capacity_systemwide_min : Raw :=
    { name := chars! "flow_capacity_systemwide_min",
      foreach := some [chars! "techs", chars! "carriers"],
      cond := some (chars! "flow_cap_min_systemwide"),
      equations := some [⟨some (chars! "any(purchased_units, over=nodes)"), chars! "sum(flow_cap, over=nodes) >= flow_cap_min_systemwide * sum(purchased_units, over=nodes)"⟩, ⟨some (chars! "NOT any(purchased_units, over=nodes)"), chars! "sum(flow_cap, over=nodes) >= flow_cap_min_systemwide"⟩] }

def milp_checks_distance_only_for_transmission_milp : Raw :=
    { name := chars! "distance_only_for_transmission_milp",
      cond := some (chars! "not base_tech==transmission and cost_purchase_per_distance"),
      message := some (chars! "Only transmission technologies can define `distance` or `..._per_distance`."),
      errors := some (chars! "raise") }

def milp_checks_conflicting_flow_caps : Raw :=
    { name := chars! "conflicting_flow_caps",
      cond := some (chars! "(flow_cap_max OR flow_cap_min) AND flow_cap_per_unit"),
      message := some (chars! "Cannot define both `flow_cap_per_unit` and `flow_cap_max`/`flow_cap_min`"),
      errors := some (chars! "raise") }

def milp_checks_unit_commitment_only_for_units : Raw :=
    { name := chars! "unit_commitment_only_for_units",
      cond := some (chars! "integer_dispatch==True AND NOT cap_method==integer"),
      message := some (chars! "Cannot use the integer `integer_dispatch` unless the technology is using an integer unit capacities (`cap_method=integer`)."),
      errors := some (chars! "raise") }

def milp_checks_conflicting_storage_caps : Raw :=
    { name := chars! "conflicting_storage_caps",
      cond := some (chars! "(storage_cap_max OR storage_cap_min) AND storage_cap_per_unit"),
      message := some (chars! "Cannot define both `storage_cap_per_unit` and `storage_cap_max`/`storage_cap_min`"),
      errors := some (chars! "raise") }

/-- `milp.yaml`. -/
def milpFile : File where
  parameters := milp_parameters_0
  lookups := milp_lookups_0
  vars := [
    milp_vars_purchased_units,
    milp_vars_operating_units,
    milp_vars_async_flow_switch,
    milp_vars_available_flow_cap,
    milp_vars_flow_cap,
    milp_vars_area_use,
    milp_vars_source_cap,
    milp_vars_storage_cap]
  globals := [
    milp_globals_cost_investment_purchase,
    milp_globals_cost_investment]
  constraints := [
    milp_constraints_unit_commitment_milp,
    milp_constraints_flow_out_max_milp,
    milp_constraints_flow_in_max_milp,
    milp_constraints_flow_out_min_milp,
    milp_constraints_storage_capacity_units_milp,
    milp_constraints_flow_capacity_units_milp,
    milp_constraints_flow_capacity_max_purchase_milp,
    milp_constraints_storage_capacity_max_purchase_milp,
    milp_constraints_unit_capacity_max_systemwide_milp,
    milp_constraints_unit_capacity_min_systemwide_milp,
    milp_constraints_async_flow_in_milp,
    milp_constraints_async_flow_out_milp,
    milp_constraints_available_flow_cap_continuous,
    milp_constraints_available_flow_cap_binary,
    milp_constraints_available_flow_cap_max_binary_continuous_switch,
    milp_constraints_flow_capacity_minimum,
    milp_constraints_storage_capacity_minimum,
    milp_constraints_area_use_minimum,
    milp_constraints_source_capacity_minimum,
    milp_constraints_flow_out_max,
    milp_constraints_flow_out_min,
    milp_constraints_flow_in_max,
    milp_constraints_flow_capacity_systemwide_min]
  checks := [
    milp_checks_distance_only_for_transmission_milp,
    milp_checks_conflicting_flow_caps,
    milp_checks_unit_commitment_only_for_units,
    milp_checks_conflicting_storage_caps]

/-! ### `operate.yaml` -/

def operate_parameters_0 : List Raw :=
  plain [chars! "area_use",
    chars! "storage_cap",
    chars! "purchased_units",
    chars! "source_cap",
    chars! "flow_cap",
    chars! "link_flow_cap"]

def operate_vars_flow_cap : Raw :=
    { name := chars! "flow_cap",
      active := some false }

def operate_vars_link_flow_cap : Raw :=
    { name := chars! "link_flow_cap",
      active := some false }

def operate_vars_area_use : Raw :=
    { name := chars! "area_use",
      active := some false }

def operate_vars_source_cap : Raw :=
    { name := chars! "source_cap",
      active := some false }

def operate_vars_storage_cap : Raw :=
    { name := chars! "storage_cap",
      active := some false }

def operate_vars_purchased_units : Raw :=
    { name := chars! "purchased_units",
      active := some false }

def operate_globals_cost_investment : Raw :=
    { name := chars! "cost_investment",
      active := some false }

def operate_globals_cost_investment_annualised : Raw :=
    { name := chars! "cost_investment_annualised",
      active := some false }

def operate_globals_cost_investment_flow_cap : Raw :=
    { name := chars! "cost_investment_flow_cap",
      active := some false }

def operate_globals_cost_investment_storage_cap : Raw :=
    { name := chars! "cost_investment_storage_cap",
      active := some false }

def operate_globals_cost_investment_source_cap : Raw :=
    { name := chars! "cost_investment_source_cap",
      active := some false }

def operate_globals_cost_investment_area_use : Raw :=
    { name := chars! "cost_investment_area_use",
      active := some false }

def operate_globals_cost_investment_purchase : Raw :=
    { name := chars! "cost_investment_purchase",
      active := some false }

def operate_globals_cost_operation_fixed : Raw :=
    { name := chars! "cost_operation_fixed",
      active := some false }

def operate_globals_cost : Raw :=
    { name := chars! "cost",
      cond := some (chars! "cost_operation_variable"),
      equations := some [⟨none, chars! "sum(cost_operation_variable, over=timesteps)"⟩] }

def operate_constraints_flow_capacity_per_storage_capacity_min : Raw :=
    { name := chars! "flow_capacity_per_storage_capacity_min",
      active := some false }

def operate_constraints_flow_capacity_per_storage_capacity_max : Raw :=
    { name := chars! "flow_capacity_per_storage_capacity_max",
      active := some false }

def operate_constraints_source_capacity_equals_flow_capacity : Raw :=
    { name := chars! "source_capacity_equals_flow_capacity",
      active := some false }

def operate_constraints_force_zero_area_use : Raw :=
    { name := chars! "force_zero_area_use",
      active := some false }

def operate_constraints_area_use_per_flow_capacity : Raw :=
    { name := chars! "area_use_per_flow_capacity",
      active := some false }

def operate_constraints_area_use_capacity_per_loc : Raw :=
    { name := chars! "area_use_capacity_per_loc",
      active := some false }

def operate_constraints_flow_capacity_systemwide_max : Raw :=
    { name := chars! "flow_capacity_systemwide_max",
      active := some false }

def operate_constraints_flow_capacity_systemwide_min : Raw :=
    { name := chars! "flow_capacity_systemwide_min",
      active := some false }

def operate_constraints_symmetric_transmission : Raw :=
    { name := chars! "symmetric_transmission",
      active := some false }

def operate_constraints_storage_capacity_units_milp : Raw :=
    { name := chars! "storage_capacity_units_milp",
      active := some false }

def operate_constraints_flow_capacity_units_milp : Raw :=
    { name := chars! "flow_capacity_units_milp",
      active := some false }

def operate_constraints_unit_capacity_max_systemwide_milp : Raw :=
    { name := chars! "unit_capacity_max_systemwide_milp",
      active := some false }

def operate_constraints_unit_capacity_min_systemwide_milp : Raw :=
    { name := chars! "unit_capacity_min_systemwide_milp",
      active := some false }

def operate_checks_operate_mode_cyclic_storage : Raw :=
    { name := chars! "operate_mode_cyclic_storage",
      cond := some (chars! "cyclic_storage==True AND (base_tech==storage OR include_storage==True)"),
      message := some (chars! "Cyclic storage should be switched off in operate mode. Since the parameter defaults to True, make sure you explicitly set `cyclic_storage: false` for all your technologies with storage."),
      errors := some (chars! "raise") }

/-- `operate.yaml`. -/
def operateFile : File where
  parameters := operate_parameters_0
  vars := [
    operate_vars_flow_cap,
    operate_vars_link_flow_cap,
    operate_vars_area_use,
    operate_vars_source_cap,
    operate_vars_storage_cap,
    operate_vars_purchased_units]
  globals := [
    operate_globals_cost_investment,
    operate_globals_cost_investment_annualised,
    operate_globals_cost_investment_flow_cap,
    operate_globals_cost_investment_storage_cap,
    operate_globals_cost_investment_source_cap,
    operate_globals_cost_investment_area_use,
    operate_globals_cost_investment_purchase,
    operate_globals_cost_operation_fixed,
    operate_globals_cost]
  constraints := [
    operate_constraints_flow_capacity_per_storage_capacity_min,
    operate_constraints_flow_capacity_per_storage_capacity_max,
    operate_constraints_source_capacity_equals_flow_capacity,
    operate_constraints_force_zero_area_use,
    operate_constraints_area_use_per_flow_capacity,
    operate_constraints_area_use_capacity_per_loc,
    operate_constraints_flow_capacity_systemwide_max,
    operate_constraints_flow_capacity_systemwide_min,
    operate_constraints_symmetric_transmission,
    operate_constraints_storage_capacity_units_milp,
    operate_constraints_flow_capacity_units_milp,
    operate_constraints_unit_capacity_max_systemwide_milp,
    operate_constraints_unit_capacity_min_systemwide_milp]
  checks := [
    operate_checks_operate_mode_cyclic_storage]

/-! ### `spores.yaml` -/

def spores_parameters_0 : List Raw :=
  plain [chars! "spores_baseline_cost",
    chars! "spores_slack",
    chars! "spores_score"]

def spores_constraints_total_system_cost_max : Raw :=
    { name := chars! "total_system_cost_max",
      equations := some [⟨some (chars! "any(cost, over=[nodes, techs, costs])"), chars! "sum(\n  sum(cost, over=[nodes, techs])\n  * objective_cost_weights,\n  over=costs\n) + $unmet_demand <= spores_baseline_cost * (1 + spores_slack)"⟩, ⟨some (chars! "NOT any(cost, over=[nodes, techs, costs])"), chars! "$unmet_demand <= spores_baseline_cost * (1 + spores_slack)"⟩],
      subs := [(chars! "unmet_demand", [⟨none, chars! "sum(\n  sum(unmet_demand - unused_supply, over=[carriers, nodes])\n  * timestep_weights,\n  over=timesteps\n) * bigM"⟩])] }

def spores_objectives_min_spores : Raw :=
    { name := chars! "min_spores",
      equations := some [⟨none, chars! "sum(flow_cap * spores_score, over=[nodes, techs, carriers]) + $unmet_demand"⟩],
      subs := [(chars! "unmet_demand", [⟨none, chars! "sum(\n  sum(unmet_demand - unused_supply, over=[carriers, nodes])\n  * timestep_weights,\n  over=timesteps\n) * bigM"⟩])],
      sense := some (chars! "minimise") }

def spores_postprocessed_spores_score_cumulative : Raw :=
    { name := chars! "spores_score_cumulative",
      foreach := some [chars! "nodes", chars! "techs", chars! "carriers"],
      equations := some [⟨none, chars! "spores_score"⟩] }

def spores_postprocessed_spores_baseline_cost_tracked : Raw :=
    { name := chars! "spores_baseline_cost_tracked",
      equations := some [⟨none, chars! "spores_baseline_cost"⟩] }

/-- `spores.yaml`. -/
def sporesFile : File where
  parameters := spores_parameters_0
  constraints := [
    spores_constraints_total_system_cost_max]
  objectives := [
    spores_objectives_min_spores]
  postprocessed := [
    spores_postprocessed_spores_score_cumulative,
    spores_postprocessed_spores_baseline_cost_tracked]

/-! ### `storage_inter_cluster.yaml` -/

def interCluster_lookups_0 : List Raw :=
  plain [chars! "timestep_cluster",
    chars! "lookup_datestep_cluster",
    chars! "lookup_datestep_last_cluster_timestep"]

def interCluster_vars_storage : Raw :=
    { name := chars! "storage",
      lower := some (chars! "-.inf") }

def interCluster_vars_storage_inter_cluster : Raw :=
    { name := chars! "storage_inter_cluster",
      foreach := some [chars! "nodes", chars! "techs", chars! "datesteps"],
      cond := some (chars! "include_storage==True OR base_tech==storage"),
      lower := some (chars! "0"),
      upper := some (chars! ".inf") }

def interCluster_vars_storage_intra_cluster_max : Raw :=
    { name := chars! "storage_intra_cluster_max",
      foreach := some [chars! "nodes", chars! "techs", chars! "clusters"],
      cond := some (chars! "include_storage==True OR base_tech==storage"),
      lower := some (chars! "-.inf"),
      upper := some (chars! ".inf") }

def interCluster_vars_storage_intra_cluster_min : Raw :=
    { name := chars! "storage_intra_cluster_min",
      foreach := some [chars! "nodes", chars! "techs", chars! "clusters"],
      cond := some (chars! "include_storage==True OR base_tech==storage"),
      lower := some (chars! "-.inf"),
      upper := some (chars! ".inf") }

def interCluster_constraints_storage_max : Raw :=
    { name := chars! "storage_max",
      active := some false }

def interCluster_constraints_balance_supply_with_storage : Raw :=
    { name := chars! "balance_supply_with_storage",
      subs := [(chars! "storage_previous_step", [⟨some (chars! "timesteps==get_val_at_index(timesteps=0) AND NOT cyclic_storage==True"), chars! "storage_initial * storage_cap"⟩, ⟨some (chars! "(\n  (timesteps==get_val_at_index(timesteps=0) AND cyclic_storage==True)\n  OR NOT timesteps==get_val_at_index(timesteps=0)\n) AND NOT lookup_cluster_last_timestep"), chars! "(1 - storage_loss) ** roll(timestep_resolution, timesteps=1) * roll(storage, timesteps=1)"⟩, ⟨some (chars! "lookup_cluster_last_timestep AND NOT (timesteps==get_val_at_index(timesteps=0) AND NOT cyclic_storage==True)"), chars! "0"⟩])] }

def interCluster_constraints_balance_storage : Raw :=
    { name := chars! "balance_storage",
      subs := [(chars! "storage_previous_step", [⟨some (chars! "timesteps==get_val_at_index(timesteps=0) AND NOT cyclic_storage==True"), chars! "storage_initial * storage_cap"⟩, ⟨some (chars! "(\n  (timesteps==get_val_at_index(timesteps=0) AND cyclic_storage==True)\n  OR NOT timesteps==get_val_at_index(timesteps=0)\n) AND NOT lookup_cluster_last_timestep"), chars! "(1 - storage_loss) ** roll(timestep_resolution, timesteps=1) * roll(storage, timesteps=1)"⟩, ⟨some (chars! "lookup_cluster_last_timestep AND NOT (timesteps==get_val_at_index(timesteps=0) AND NOT cyclic_storage==True)"), chars! "0"⟩])] }

def interCluster_constraints_set_storage_initial : Raw :=
    { name := chars! "set_storage_initial",
      equations := some [⟨none, chars! "storage_inter_cluster[datesteps=$final_step] * ((1 - storage_loss) ** 24) == storage_initial * storage_cap"⟩],
      slices := [(chars! "final_step", [⟨none, chars! "get_val_at_index(datesteps=-1)"⟩])] }

def interCluster_constraints_storage_intra_max : Raw :=
    { name := chars! "storage_intra_max",
      foreach := some [chars! "nodes", chars! "techs", chars! "timesteps"],
      cond := some (chars! "include_storage==True OR base_tech==storage"),
      equations := some [⟨none, chars! "storage <= storage_intra_cluster_max[clusters=$cluster]"⟩],
      slices := [(chars! "cluster", [⟨none, chars! "timestep_cluster"⟩])] }

def interCluster_constraints_storage_intra_min : Raw :=
    { name := chars! "storage_intra_min",
      foreach := some [chars! "nodes", chars! "techs", chars! "timesteps"],
      cond := some (chars! "include_storage==True OR base_tech==storage"),
      equations := some [⟨none, chars! "storage >= storage_intra_cluster_min[clusters=$cluster]"⟩],
      slices := [(chars! "cluster", [⟨none, chars! "timestep_cluster"⟩])] }

def interCluster_constraints_storage_inter_max : Raw :=
    { name := chars! "storage_inter_max",
      foreach := some [chars! "nodes", chars! "techs", chars! "datesteps"],
      cond := some (chars! "include_storage==True OR base_tech==storage"),
      equations := some [⟨none, chars! "storage_inter_cluster + storage_intra_cluster_max[clusters=$cluster] <= storage_cap"⟩],
      slices := [(chars! "cluster", [⟨none, chars! "lookup_datestep_cluster"⟩])] }

def interCluster_constraints_storage_inter_min : Raw :=
    { name := chars! "storage_inter_min",
      foreach := some [chars! "nodes", chars! "techs", chars! "datesteps"],
      cond := some (chars! "include_storage==True OR base_tech==storage"),
      equations := some [⟨none, chars! "storage_inter_cluster * ((1 - storage_loss) ** 24) + storage_intra_cluster_min[clusters=$cluster] >= 0"⟩],
      slices := [(chars! "cluster", [⟨none, chars! "lookup_datestep_cluster"⟩])] }

def interCluster_constraints_balance_storage_inter : Raw :=
    { name := chars! "balance_storage_inter",
      foreach := some [chars! "nodes", chars! "techs", chars! "datesteps"],
      cond := some (chars! "include_storage==True OR base_tech==storage"),
      equations := some [⟨none, chars! "storage_inter_cluster == $storage_previous_step + $storage_intra"⟩],
      subs := [(chars! "storage_previous_step", [⟨some (chars! "datesteps==get_val_at_index(datesteps=0) AND NOT cyclic_storage==True"), chars! "storage_initial"⟩, ⟨some (chars! "(datesteps==get_val_at_index(datesteps=0) AND cyclic_storage==True) OR NOT datesteps==get_val_at_index(datesteps=0)"), chars! "((1 - storage_loss) ** 24) * roll(storage_inter_cluster, datesteps=1)"⟩]), (chars! "storage_intra", [⟨some (chars! "datesteps==get_val_at_index(datesteps=0) AND NOT cyclic_storage==True"), chars! "0"⟩, ⟨some (chars! "NOT (datesteps==get_val_at_index(datesteps=0) AND NOT cyclic_storage==True)"), chars! "storage[timesteps=$final_step]"⟩])],
      slices := [(chars! "final_step", [⟨none, chars! "roll(lookup_datestep_last_cluster_timestep, datesteps=1)"⟩])] }

def interCluster_checks_cyclic_storage_needs_inter_cluster : Raw :=
    { name := chars! "cyclic_storage_needs_inter_cluster",
      active := some false }

/-- `storage_inter_cluster.yaml`. -/
def interClusterFile : File where
  lookups := interCluster_lookups_0
  vars := [
    interCluster_vars_storage,
    interCluster_vars_storage_inter_cluster,
    interCluster_vars_storage_intra_cluster_max,
    interCluster_vars_storage_intra_cluster_min]
  constraints := [
    interCluster_constraints_storage_max,
    interCluster_constraints_balance_supply_with_storage,
    interCluster_constraints_balance_storage,
    interCluster_constraints_set_storage_initial,
    interCluster_constraints_storage_intra_max,
    interCluster_constraints_storage_intra_min,
    interCluster_constraints_storage_inter_max,
    interCluster_constraints_storage_inter_min,
    interCluster_constraints_balance_storage_inter]
  checks := [
    interCluster_checks_cyclic_storage_needs_inter_cluster]

/-- The math files (model_math.py:29-54). -/
def shipped (n : Grammar.Str) : Option File :=
  if n = chars! "base" then some baseFile
  else if n = chars! "milp" then some milpFile
  else if n = chars! "operate" then some operateFile
  else if n = chars! "spores" then some sporesFile
  else if n = chars! "storage_inter_cluster" then some interClusterFile
  else none

end MathText
end Calliope
