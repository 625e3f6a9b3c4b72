import Verif.Props.AttrDict
import Verif.Props.Text
import Verif.Props.Scenario
import Verif.Props.Template
import Verif.Props.Aliasing
import Verif.Props.Imports
import Verif.Props.MathSchema
import Verif.Props.Config
import Verif.Props.Serialise
import Verif.Props.Time
import Verif.Props.Operate
import Verif.Props.Lifecycle
import Verif.Props.Spores
import Verif.Props.Registry
import Verif.Props.Equations
import Verif.Props.Update
import Verif.Props.SolverObjects
import Verif.Props.Where
import Verif.Props.Mask
import Verif.Props.Arith
import Verif.Props.Expand
import Verif.Props.Expr
import Verif.Props.Build
import Verif.Props.BaseParse
import Verif.Props.BaseMath
import Verif.Props.BaseBalance
import Verif.Props.BaseCost
import Verif.Props.BaseTotal
import Verif.Props.BaseDemo
import Verif.Props.DemoTools
import Verif.Props.MathParse
import Verif.Props.InterCluster
import Verif.Props.InterDemo
import Verif.Props.Runs
import Verif.Props.ModelData
import Verif.Props.ModelData2
import Verif.Props.ModelLabels
import Verif.Props.Clean
import Verif.Props.Tables
import Verif.Props.InitTables
import Verif.Props.MathStrings
import Verif.Props.Costs
import Verif.Props.CostDemo
import Verif.Props.Variables
import Verif.Props.Limits
import Verif.Props.DemoVars
import Verif.Props.LimitDemo
import Verif.Props.Units
import Verif.Props.UnitDemo
import Verif.Props.Supply
import Verif.Props.Ramping
import Verif.Props.SupplyDemo
import Verif.Props.Checks
import Verif.Props.ChecksDemo
import Verif.Props.Defaults
import Verif.Props.Postprocess
import Verif.Props.PostDemo
import Verif.Props.Capacities
import Verif.Props.CapDemo
import Verif.Props.Results
import Verif.Props.Piecewise
import Verif.Props.Cli
import Verif.Props.SaveLoad
import Verif.Props.NewModel
import Verif.Props.Csv
import Verif.Props.MilpCosts
import Verif.Props.MilpCostDemo
import Verif.Props.SolverProblem
import Verif.Props.SporeFiles
import Verif.Props.Names
import Verif.Props.MathDoc
import Verif.Props.Readback
import Verif.Props.Grammar
import Verif.Props.WhereGrammar
import Verif.Props.MathText
import Verif.Props.MathFiles
import Verif.Props.Validation
import Verif.Props.ValidationFiles
import Verif.Props.LatexIndex
import Verif.Props.LatexWhere
import Verif.Props.TableSchema
import Verif.Props.Session
import Verif.Props.AttrName
import Verif.Props.DataSchema
import Verif.Props.Assemble
import Verif.Props.Decisions
import Verif.Props.Order
import Verif.Props.Coarse
import Verif.Props.CoarseMore
import Verif.Props.CoarseDemo
import Verif.Props.CoarseMoreDemo
import Verif.Props.CoarseOdd
import Verif.Props.Write
import Verif.Props.WriteDemo
import Verif.Props.Merge
import Verif.Props.Linear
import Verif.Props.Measure
import Verif.Props.Loosen
import Verif.Props.Rename
import Verif.Props.Typical
import Verif.Props.Average
import Verif.Props.Logging
import Verif.Props.SupplyStorage
import Verif.Props.SupplyStorageDemo
import Verif.Props.Restrict
import Verif.Props.SporesObjective
import Verif.Props.Copying
import Verif.Props.Dates
import Verif.Props.Versions
import Verif.Props.RunScripts

/-!
# Axioms of every theorem named in MANIFEST.json

Each line prints the axioms a theorem depends on; the list must stay within `propext`,
`Classical.choice` and `Quot.sound`.
-/

#print axioms Calliope.Dict.C01_get_key_reads
#print axioms Calliope.Dict.C01_set_then_get
#print axioms Calliope.Dict.C01_set_raises_iff
#print axioms Calliope.Dict.C01_set_frame_partial
#print axioms Calliope.Dict.C01_frame_fails
#print axioms Calliope.Dict.C01_set_wipes_siblings
#print axioms Calliope.Text.C01_dotted_recursion
#print axioms Calliope.Text.C01_dotted_keys
#print axioms Calliope.Dict.C02_union_override_partial
#print axioms Calliope.Dict.C02_union_loses_data
#print axioms Calliope.Dict.C03_union_raises
#print axioms Calliope.Dict.C03_union_keeps_partial
#print axioms Calliope.Dict.C03_union_silently_loses
#print axioms Calliope.Dict.C04_keys_nested
#print axioms Calliope.Dict.C04_flat_round_trip
#print axioms Calliope.Dict.C05_del_key
#print axioms Calliope.Dict.C06_replace
#print axioms Calliope.ModelDefinition.C07_priority_partial
#print axioms Calliope.ModelDefinition.C07_kwargs_partial
#print axioms Calliope.ModelDefinition.C08_replacement_partial
#print axioms Calliope.ModelDefinition.C08_replacement_overridden
#print axioms Calliope.ModelDefinition.C09_expansion
#print axioms Calliope.ModelDefinition.C09_errors
#print axioms Calliope.ModelDefinition.C09_acyclic_returns
#print axioms Calliope.ModelDefinition.C09_circular_never_returns
#print axioms Calliope.ModelDefinition.C10_order_independent_partial
#print axioms Calliope.ModelDefinition.C10_order_matters
#print axioms Calliope.ModelDefinition.C11_chain_partial
#print axioms Calliope.ModelDefinition.C11_local_over_template_partial
#print axioms Calliope.ModelDefinition.C11_template_supplies_partial
#print axioms Calliope.ModelDefinition.C12_terminates
#print axioms Calliope.ModelDefinition.C12_circular_rejected
#print axioms Calliope.ModelDefinition.C12_no_false_alarm
#print axioms Calliope.ModelDefinition.C13_no_template_key_partial
#print axioms Calliope.ModelDefinition.C13_nested_call_survives
#print axioms Calliope.ModelDefinition.C14_order_independent_partial
#print axioms Calliope.ModelDefinition.C14_order_matters
#print axioms Calliope.Imports.C15_importer_wins_partial
#print axioms Calliope.Imports.C15_duplicate_raises_partial
#print axioms Calliope.Imports.C15_circular_never_succeeds
#print axioms Calliope.Imports.C15_override_not_passed_on
#print axioms Calliope.Imports.C15_importer_loses_value
#print axioms Calliope.Imports.C16_last_wins_partial
#print axioms Calliope.Imports.C16_unknown_name
#print axioms Calliope.Imports.C16_priority
#print axioms Calliope.Math.C17_unique_names
#print axioms Calliope.Math.C17_find
#print axioms Calliope.Math.C18_expression_names
#print axioms Calliope.Math.C18_where_names
#print axioms Calliope.Registry.C18_build_contents
#print axioms Calliope.Registry.C18_only_active
#print axioms Calliope.Registry.C18_all_active
#print axioms Calliope.Registry.C18_inactive_variable_blocks
#print axioms Calliope.Registry.C18_inactive_lookup_hides_parameter
#print axioms Calliope.Registry.C32_one_group_partial
#print axioms Calliope.Registry.C32_add_existing
#print axioms Calliope.Registry.C32_clash_leaves_list
#print axioms Calliope.Registry.C32_two_groups
#print axioms Calliope.Registry.C32_late_refusal
#print axioms Calliope.Registry.C33_build_order
#print axioms Calliope.Equations.C34_single_equation
#print axioms Calliope.Equations.C34_overlap_raises
#print axioms Calliope.Equations.C34_order_irrelevant
#print axioms Calliope.Config.C19_update
#print axioms Calliope.Config.C19_new_keys
#print axioms Calliope.Config.C19_idempotent
#print axioms Calliope.Config.C19_disjoint_commute
#print axioms Calliope.Config.C20_unique_partial
#print axioms Calliope.Config.C20_mixed_lists_fail
#print axioms Calliope.Serialise.C21_attrs_partial
#print axioms Calliope.Serialise.C21_round_trip_partial
#print axioms Calliope.Serialise.C21_coordinates_fail
#print axioms Calliope.Serialise.C21_empty_list_fails
#print axioms Calliope.Serialise.C21_import_entry_fails
#print axioms Calliope.Serialise.C22_memory_unchanged_partial
#print axioms Calliope.Serialise.C22_type_error_fails
#print axioms Calliope.Time.C23_resolution
#print axioms Calliope.Time.C24_resample
#print axioms Calliope.Time.C24_empty_iff
#print axioms Calliope.Time.C24_needs_method
#print axioms Calliope.Time.C25_cluster_partial
#print axioms Calliope.Time.C25_missing_day_fails
#print axioms Calliope.Time.C25_self_not_checked
#print axioms Calliope.Time.C25_last_only_at_midnight
#print axioms Calliope.Time.C26_subset_partial
#print axioms Calliope.Time.C26_malformed
#print axioms Calliope.Time.C26_outside_raises_partial
#print axioms Calliope.Time.C26_empty_subset_accepted
#print axioms Calliope.Time.C26_overlap_rejected
#print axioms Calliope.Operate.C27_cover_partial
#print axioms Calliope.Operate.C27_single_window_fails
#print axioms Calliope.Operate.C27_short_horizon_fails
#print axioms Calliope.Operate.C28_handover_partial
#print axioms Calliope.Operate.C66_window_data_partial
#print axioms Calliope.Operate.C66_gap_keeps_old_value
#print axioms Calliope.Operate.C66_lookups_not_updated
#print axioms Calliope.Lifecycle.C29_guards
#print axioms Calliope.Lifecycle.C29_histories
#print axioms Calliope.Lifecycle.C29_effects
#print axioms Calliope.Lifecycle.C29_failed_rebuild
#print axioms Calliope.Lifecycle.C29_solved_again
#print axioms Calliope.Lifecycle.C29_read_counts_as_solved
#print axioms Calliope.Lifecycle.C30_zero_threshold
#print axioms Calliope.Lifecycle.C30_joined_conditions
#print axioms Calliope.Spores.C31_run
#print axioms Calliope.Spores.C31_refused
#print axioms Calliope.Spores.C31_integer_scores
#print axioms Calliope.Spores.C31_relative_scores
#print axioms Calliope.Spores.C31_random_scores
#print axioms Calliope.Spores.C31_evolving_scores
#print axioms Calliope.Spores.C31_restart_partial
#print axioms Calliope.Spores.C31_evolving_decreases
#print axioms Calliope.Spores.C31_random_undeployed
#print axioms Calliope.Spores.C31_restart_evolving_differs
#print axioms Calliope.Spores.C31_restart_limit
#print axioms Calliope.Spores.C31_restart_numbers
#print axioms Calliope.Spores.C67_history_partial
#print axioms Calliope.Spores.C67_own_baseline_partial
#print axioms Calliope.Spores.C67_stale_budget
#print axioms Calliope.Spores.C67_limit_kept
#print axioms Calliope.Update.C35_nan_keeps
#print axioms Calliope.Update.C35_first_update
#print axioms Calliope.Update.C35_history_partial
#print axioms Calliope.Update.C35_in_place_where
#print axioms Calliope.Update.C35_stale_after_reorder
#print axioms Calliope.Update.C35_hidden_read
#print axioms Calliope.Update.C35_update_hides_error
#print axioms Calliope.Update.C35_pyomo_lookup
#print axioms Calliope.Update.C35_after_delete
#print axioms Calliope.Update.C36_collects
#print axioms Calliope.Update.C36_acyclic_returns
#print axioms Calliope.Update.C36_cycle_never_returns
#print axioms Calliope.Update.C36_rebuilds_dependents
#print axioms Calliope.Update.C36_history_partial
#print axioms Calliope.Update.C36_stale_reference
#print axioms Calliope.SolverObjects.C37_at_most_one
#print axioms Calliope.SolverObjects.C37_set_exactly_one
#print axioms Calliope.SolverObjects.C37_build_activates
#print axioms Calliope.SolverObjects.C37_failed_set_leaves_none
#print axioms Calliope.SolverObjects.C37_gurobi
#print axioms Calliope.SolverObjects.C37_gurobi_config_stale
#print axioms Calliope.SolverObjects.C37_gurobi_current
#print axioms Calliope.SolverObjects.C37_gurobi_deleted_stays
#print axioms Calliope.SolverObjects.C38_returned
#print axioms Calliope.SolverObjects.C38_refuses
#print axioms Calliope.SolverObjects.C38_refusal_partial
#print axioms Calliope.SolverObjects.C38_min_changed_on_refusal
#print axioms Calliope.SolverObjects.C39_fix_outside
#print axioms Calliope.SolverObjects.C39_fix_fails
#print axioms Calliope.SolverObjects.C39_inverse
#print axioms Calliope.SolverObjects.C39_round_trip
#print axioms Calliope.SolverObjects.C39_failed_fix_keeps
#print axioms Calliope.SolverObjects.C39_gurobi_one_way
#print axioms Calliope.Where.C40_pointwise
#print axioms Calliope.Where.C40_returns
#print axioms Calliope.Where.C40_item_by_item
#print axioms Calliope.Where.C40_missing_false
#print axioms Calliope.Where.C40_absent_parameter
#print axioms Calliope.Where.C40_absent_lookup
#print axioms Calliope.Where.C40_defined_any
#print axioms Calliope.Where.C40_defined_all
#print axioms Calliope.Where.C40_numbers
#print axioms Calliope.Where.C41_left_to_right
#print axioms Calliope.Where.C41_exact
#print axioms Calliope.Where.C41_conventional_partial
#print axioms Calliope.Where.C41_or_and
#print axioms Calliope.Arith.C42_convention_unique
#print axioms Calliope.Arith.C42_conventional_partial
#print axioms Calliope.Arith.C42_left_grouping
#print axioms Calliope.Arith.C42_sign_before_power
#print axioms Calliope.Arith.C42_power_of_power
#print axioms Calliope.Arith.C42_values
#print axioms Calliope.Where.C43_grammar
#print axioms Calliope.Where.C43_round_trip
#print axioms Calliope.Arith.C43_arithmetic
#print axioms Calliope.Where.C45_exact
#print axioms Calliope.Where.C45_complete
#print axioms Calliope.Where.C45_built_partial
#print axioms Calliope.Where.C45_unknown_dimension
#print axioms Calliope.Where.C45_dimensions
#print axioms Calliope.Where.C45_returns
#print axioms Calliope.Where.C45_not_joint
#print axioms Calliope.Arith.C51_expression_partial
#print axioms Calliope.Arith.C51_sign_of_sum
#print axioms Calliope.Arith.C51_sub_expression_in_product
#print axioms Calliope.Arith.C51_zero_minus
#print axioms Calliope.Arith.C51_signed_base
#print axioms Calliope.Arith.C51_power_chain
#print axioms Calliope.Where.C51_condition_partial
#print axioms Calliope.Where.C51_or_and
#print axioms Calliope.Where.C51_or_true
#print axioms Calliope.Expand.C44_product
#print axioms Calliope.Expand.C44_once
#print axioms Calliope.Expand.C44_exclusive
#print axioms Calliope.Expand.C44_exhaustive
#print axioms Calliope.Expr.C46_value
#print axioms Calliope.Expr.C46_missing
#print axioms Calliope.Expr.C46_names
#print axioms Calliope.Expr.C46_absent
#print axioms Calliope.Expr.C46_nested
#print axioms Calliope.Expr.C47_position
#print axioms Calliope.Expr.C47_compose
#print axioms Calliope.Expr.C47_total
#print axioms Calliope.Expr.C47_missing_dim
#print axioms Calliope.Expr.C48_window_partial
#print axioms Calliope.Expr.C48_printed
#print axioms Calliope.Expr.C48_negative
#print axioms Calliope.Expr.C49_value
#print axioms Calliope.Expr.C49_total
#print axioms Calliope.Expr.C50_value_partial
#print axioms Calliope.Expr.C50_raises
#print axioms Calliope.Expr.C50_outside
#print axioms Calliope.Expr.C68_meaning
#print axioms Calliope.Expr.C68_returns
#print axioms Calliope.Expr.C68_independent_partial
#print axioms Calliope.Expr.C68_masked_sum
#print axioms Calliope.Expand.C69_resolved_partial
#print axioms Calliope.Expand.C69_signed_reference
#print axioms Calliope.Expand.C69_signed_slice
#print axioms Calliope.Expr.C70_expression
#print axioms Calliope.Expr.C70_comparison
#print axioms Calliope.Expr.C70_comparison_unchecked
#print axioms Calliope.Build.C71_constraint
#print axioms Calliope.Build.C71_expression
#print axioms Calliope.BaseMath.C61_exactly_one
#print axioms Calliope.BaseMath.C61_rule
#print axioms Calliope.BaseMath.C62_block
#print axioms Calliope.BaseMath.C62_horizon
#print axioms Calliope.BaseMath.C62_cyclic
#print axioms Calliope.BaseMath.C62_cluster
#print axioms Calliope.BaseMath.C62_lossless
#print axioms Calliope.BaseMath.C62_initial
#print axioms Calliope.BaseMath.C63_balance
#print axioms Calliope.BaseMath.C63_system
#print axioms Calliope.BaseMath.C63_outflow
#print axioms Calliope.BaseMath.C63_inflow
#print axioms Calliope.BaseMath.C63_transmission
#print axioms Calliope.BaseMath.C63_conversion
#print axioms Calliope.BaseMath.C63_no_gain
#print axioms Calliope.BaseMath.C64_cases_partial
#print axioms Calliope.BaseMath.C64_value
#print axioms Calliope.BaseMath.C64_annuity
#print axioms Calliope.BaseMath.C64_no_interest
#print axioms Calliope.BaseMath.C64_repays
#print axioms Calliope.BaseMath.C64_exists
#print axioms Calliope.BaseMath.C64_limit
#print axioms Calliope.BaseMath.C64_negative
#print axioms Calliope.BaseMath.C64_infinite
#print axioms Calliope.BaseMath.C65_value
#print axioms Calliope.BaseMath.C65_unweighted_partial
#print axioms Calliope.BaseMath.C65_error
#print axioms Calliope.BaseMath.Demo.C65_weights
#print axioms Calliope.Runs.C59_runs
#print axioms Calliope.Runs.C59_commands
#print axioms Calliope.Runs.C59_files
#print axioms Calliope.Runs.C59_script
#print axioms Calliope.Runs.C59_cluster
#print axioms Calliope.Runs.C59_empty_scenario
#print axioms Calliope.Runs.C59_options
#print axioms Calliope.Runs.C59_windows
#print axioms Calliope.Runs.C60_product
#print axioms Calliope.Runs.C60_names
#print axioms Calliope.Runs.C60_prefix
#print axioms Calliope.ModelData.C52_node
#print axioms Calliope.ModelData.C52_tech_partial
#print axioms Calliope.ModelData.C52_listed_partial
#print axioms Calliope.ModelData.C52_origin
#print axioms Calliope.ModelData.C52_nothing
#print axioms Calliope.ModelData.C52_settings_left
#print axioms Calliope.ModelData.C52_not_erased
#print axioms Calliope.ModelData.C52_label_origin
#print axioms Calliope.ModelData.C53_value
#print axioms Calliope.ModelData.C53_node_wins
#print axioms Calliope.ModelData.C53_tech_default
#print axioms Calliope.ModelData.C53_indexed_over_single
#print axioms Calliope.ModelData.C53_carrier_at_node
#print axioms Calliope.ModelData.C53_node_label
#print axioms Calliope.ModelData.C53_labels
#print axioms Calliope.ModelData.C53_own_labels
#print axioms Calliope.ModelData.C54_labels
#print axioms Calliope.ModelData.C54_carrier_in
#print axioms Calliope.ModelData.C54_carrier_out
#print axioms Calliope.ModelData.C54_settings
#print axioms Calliope.ModelData.C54_absent
#print axioms Calliope.ModelData.C54_loop
#print axioms Calliope.ModelData.C55_history
#print axioms Calliope.ModelData.C55_labels
#print axioms Calliope.ModelData.C55_definitions
#print axioms Calliope.ModelData.C55_definition_labels
#print axioms Calliope.ModelData.C55_merged
#print axioms Calliope.Clean.C56_runs
#print axioms Calliope.Clean.C56_labels
#print axioms Calliope.Clean.C56_values
#print axioms Calliope.Clean.C56_kept
#print axioms Calliope.Clean.C56_matrix
#print axioms Calliope.Clean.C56_inputs
#print axioms Calliope.Clean.C56_again
#print axioms Calliope.Clean.C57_labels
#print axioms Calliope.Clean.C57_values
#print axioms Calliope.Clean.C57_matrix
#print axioms Calliope.Clean.C57_marked
#print axioms Calliope.Clean.C57_two_nodes
#print axioms Calliope.Clean.C57_kept_partial
#print axioms Calliope.Clean.C57_others
#print axioms Calliope.Clean.C57_other_carriers
#print axioms Calliope.Clean.C58_colour
#print axioms Calliope.Clean.C58_all
#print axioms Calliope.Clean.C58_user
#print axioms Calliope.Clean.C72_distance
#print axioms Calliope.Clean.C72_fails
#print axioms Calliope.Clean.C72_unknown
#print axioms Calliope.Tables.C73_value
#print axioms Calliope.Tables.C73_clash
#print axioms Calliope.Tables.C73_dims
#print axioms Calliope.Tables.C73_labels
#print axioms Calliope.Tables.C73_protected
#print axioms Calliope.Tables.C73_loads
#print axioms Calliope.Tables.C73_transposed
#print axioms Calliope.Tables.C74_nodes
#print axioms Calliope.Tables.C74_links
#print axioms Calliope.Tables.C74_lookup
#print axioms Calliope.Tables.C74_lookup_dims
#print axioms Calliope.Tables.C74_false_counts
#print axioms Calliope.Tables.C75_techs
#print axioms Calliope.Tables.C75_tech_settings
#print axioms Calliope.Tables.C75_nodes
#print axioms Calliope.Tables.C75_node_settings
#print axioms Calliope.Tables.C75_data
#print axioms Calliope.Tables.C75_once
#print axioms Calliope.Tables.C75_values
#print axioms Calliope.Tables.C75_sound
#print axioms Calliope.Tables.C75_links
#print axioms Calliope.Tables.C75_deactivated
#print axioms Calliope.BaseMath.C76_within
#print axioms Calliope.BaseMath.C76_hours
#print axioms Calliope.BaseMath.C77_within_day
#print axioms Calliope.BaseMath.C77_next_day
#print axioms Calliope.BaseMath.C77_period
#print axioms Calliope.BaseMath.C77_initial_again
#print axioms Calliope.BaseMath.C77_first_day
#print axioms Calliope.BaseMath.C77_cyclic_initial
#print axioms Calliope.BaseMath.C78_outflow
#print axioms Calliope.BaseMath.C78_inflow
#print axioms Calliope.BaseMath.C78_least_outflow
#print axioms Calliope.BaseMath.C78_source
#print axioms Calliope.BaseMath.C78_storage
#print axioms Calliope.BaseMath.C78_depth
#print axioms Calliope.BaseMath.C78_export
#print axioms Calliope.BaseMath.C78_idle
#print axioms Calliope.BaseMath.C78_running
#print axioms Calliope.BaseMath.C78_unit_capacity
#print axioms Calliope.BaseMath.C78_units
#print axioms Calliope.BaseMath.C78_milp_partial
#print axioms Calliope.BaseMath.C78_unlimited
#print axioms Calliope.BaseMath.LimitDemo.C78_outflow_above_capacity
#print axioms Calliope.BaseMath.C79_items
#print axioms Calliope.BaseMath.C79_exists
#print axioms Calliope.BaseMath.C79_values
#print axioms Calliope.BaseMath.C81_investment
#print axioms Calliope.BaseMath.C81_breakdown
#print axioms Calliope.BaseMath.C81_annual
#print axioms Calliope.BaseMath.C81_objective
#print axioms Calliope.BaseMath.C81_link
#print axioms Calliope.BaseMath.C81_link_yearly
#print axioms Calliope.BaseMath.C82_slack
#print axioms Calliope.BaseMath.C80_async
#print axioms Calliope.BaseMath.C80_cut
#print axioms Calliope.BaseMath.C83_capacity
#print axioms Calliope.BaseMath.C83_storage
#print axioms Calliope.BaseMath.C83_minimum
#print axioms Calliope.BaseMath.C83_total
#print axioms Calliope.BaseMath.C83_total_ignored
#print axioms Calliope.BaseMath.C83_available
#print axioms Calliope.BaseMath.C83_least
#print axioms Calliope.BaseMath.C83_least_continuous
#print axioms Calliope.BaseMath.C83_storage_minimum
#print axioms Calliope.BaseMath.C83_area_minimum
#print axioms Calliope.BaseMath.C83_source_minimum
#print axioms Calliope.BaseMath.C83_storage_units
#print axioms Calliope.BaseMath.C83_total_capacity
#print axioms Calliope.BaseMath.UnitDemo.C83_too_few
#print axioms Calliope.BaseMath.C84_demand
#print axioms Calliope.BaseMath.C84_demand_least
#print axioms Calliope.BaseMath.C84_source
#print axioms Calliope.BaseMath.C84_source_least
#print axioms Calliope.BaseMath.C84_supply
#print axioms Calliope.BaseMath.C84_supply_partial
#print axioms Calliope.BaseMath.SupplyDemo.C84_twice
#print axioms Calliope.BaseMath.C85_step
#print axioms Calliope.BaseMath.C85_steps
#print axioms Calliope.BaseMath.C87_raises
#print axioms Calliope.BaseMath.C87_passes
#print axioms Calliope.BaseMath.C87_errors
#print axioms Calliope.BaseMath.C87_warnings
#print axioms Calliope.BaseMath.C87_inactive
#print axioms Calliope.BaseMath.C87_base_tech
#print axioms Calliope.BaseMath.C87_distance
#print axioms Calliope.BaseMath.C87_negative_cost
#print axioms Calliope.BaseMath.C87_finite
#print axioms Calliope.BaseMath.C87_initial_partial
#print axioms Calliope.BaseMath.C87_initial_infinite
#print axioms Calliope.BaseMath.C87_export
#print axioms Calliope.BaseMath.C87_location_partial
#print axioms Calliope.BaseMath.C87_location_missed
#print axioms Calliope.BaseMath.C87_clustered
#print axioms Calliope.BaseMath.C87_units
#print axioms Calliope.BaseMath.C87_distance_units
#print axioms Calliope.BaseMath.C87_warned
#print axioms Calliope.BaseMath.C87_operate
#print axioms Calliope.BaseMath.ChecksDemo.C87_half_location
#print axioms Calliope.BaseMath.ChecksDemo.C87_full_of_storage
#print axioms Calliope.BaseMath.ChecksDemo.C87_no_storage
#print axioms Calliope.Clean.C88_absent
#print axioms Calliope.Clean.C88_default_partial
#print axioms Calliope.Clean.C88_given
#print axioms Calliope.Clean.C88_false_beside
#print axioms Calliope.Clean.DefaultsDemo.C88_lost
#print axioms Calliope.BaseMath.C86_capacity_factor
#print axioms Calliope.BaseMath.C86_fraction
#print axioms Calliope.BaseMath.C86_systemwide
#print axioms Calliope.BaseMath.C86_systemwide_fraction
#print axioms Calliope.BaseMath.C86_levelised
#print axioms Calliope.BaseMath.C86_levelised_again
#print axioms Calliope.BaseMath.C86_total_levelised
#print axioms Calliope.BaseMath.C86_total_again
#print axioms Calliope.BaseMath.C86_unmet
#print axioms Calliope.BaseMath.C86_curtailment
#print axioms Calliope.BaseMath.C86_curtailed_partial
#print axioms Calliope.BaseMath.C86_curtailment_given
#print axioms Calliope.BaseMath.C86_total_curtailment
#print axioms Calliope.BaseMath.C86_total_curtailed_partial
#print axioms Calliope.BaseMath.C86_constant_source
#print axioms Calliope.BaseMath.PostDemo.C86_wood_twice
#print axioms Calliope.BaseMath.PostDemo.C86_heat_from_sun
#print axioms Calliope.BaseMath.PostDemo.C86_negative
#print axioms Calliope.BaseMath.PostDemo.C86_constant
#print axioms Calliope.BaseMath.C89_share_least
#print axioms Calliope.BaseMath.C89_share_most
#print axioms Calliope.BaseMath.C89_source
#print axioms Calliope.BaseMath.C89_area
#print axioms Calliope.BaseMath.C89_no_area
#print axioms Calliope.BaseMath.C89_site
#print axioms Calliope.BaseMath.C89_total_most
#print axioms Calliope.BaseMath.C89_total_least
#print axioms Calliope.BaseMath.C89_link
#print axioms Calliope.BaseMath.C89_link_twice
#print axioms Calliope.BaseMath.C89_least
#print axioms Calliope.BaseMath.C89_least_blocks
#print axioms Calliope.Results.C90_values
#print axioms Calliope.Results.C90_prices_partial
#print axioms Calliope.Results.C90_stale
#print axioms Calliope.Results.C90_integer
#print axioms Calliope.Results.C90_operate_partial
#print axioms Calliope.Results.C90_operate_lost
#print axioms Calliope.Results.C90_operate_again
#print axioms Calliope.Results.C90_rebuild
#print axioms Calliope.Results.C90_warmstart
#print axioms Calliope.Results.C90_options
#print axioms Calliope.Results.C90_gurobi_options_partial
#print axioms Calliope.Results.C90_gurobi_warmstart
#print axioms Calliope.Results.Demo.C90_overwritten
#print axioms Calliope.Piecewise.C91_items
#print axioms Calliope.Piecewise.C91_meaning_partial
#print axioms Calliope.Piecewise.C91_breakpoint_partial
#print axioms Calliope.Piecewise.C91_range_partial
#print axioms Calliope.Piecewise.C91_accepted
#print axioms Calliope.Piecewise.C91_breakpoints_dimension
#print axioms Calliope.Piecewise.C91_inactive
#print axioms Calliope.Piecewise.Demo.C91_mispaired
#print axioms Calliope.Cli.C92_reads
#print axioms Calliope.Cli.C92_lp
#print axioms Calliope.Cli.C92_exit_partial
#print axioms Calliope.Cli.C92_only
#print axioms Calliope.Cli.C92_written
#print axioms Calliope.Cli.C92_not_optimal
#print axioms Calliope.Cli.C92_logs_lost
#print axioms Calliope.Cli.C92_csv_first
#print axioms Calliope.Cli.Demo.C92_logs_asked
#print axioms Calliope.SaveLoad.C93_done
#print axioms Calliope.SaveLoad.C93_new
#print axioms Calliope.SaveLoad.C93_reopen
#print axioms Calliope.SaveLoad.C93_inputs_partial
#print axioms Calliope.SaveLoad.C93_fresh
#print axioms Calliope.SaveLoad.C93_loses
#print axioms Calliope.SaveLoad.Demo.C93_subset_loses
#print axioms Calliope.SaveLoad.C93_always_solved
#print axioms Calliope.SaveLoad.C93_no_base
#print axioms Calliope.SaveLoad.C93_no_attrs
#print axioms Calliope.SaveLoad.C93_interrupted
#print axioms Calliope.SaveLoad.C93_no_file
#print axioms Calliope.SaveLoad.C93_replaces
#print axioms Calliope.SaveLoad.C93_cluster_fixed
#print axioms Calliope.Csv.C94_rows
#print axioms Calliope.Csv.C94_files
#print axioms Calliope.Csv.C94_others
#print axioms Calliope.Csv.C94_exists
#print axioms Calliope.Csv.C94_interrupted
#print axioms Calliope.BaseMath.C95_purchase_partial
#print axioms Calliope.BaseMath.C95_link
#print axioms Calliope.BaseMath.C95_investment_partial
#print axioms Calliope.BaseMath.C95_breakdown_partial
#print axioms Calliope.BaseMath.C95_annual_partial
#print axioms Calliope.BaseMath.C95_operate
#print axioms Calliope.BaseMath.C95_unpriced
#print axioms Calliope.BaseMath.MilpCostDemo.C95_distance_only
#print axioms Calliope.Problem.C96_pyomo
#print axioms Calliope.Problem.C96_pyomo_solution
#print axioms Calliope.Problem.C96_gurobi_held
#print axioms Calliope.Problem.C96_gurobi_solution
#print axioms Calliope.Problem.C96_gurobi_partial
#print axioms Calliope.Problem.C96_gurobi_piecewise
#print axioms Calliope.Problem.C96_gurobi_failed
#print axioms Calliope.Spores.C97_crash_partial
#print axioms Calliope.Spores.C97_content
#print axioms Calliope.Spores.C97_saved_partial
#print axioms Calliope.Spores.C97_restart_partial
#print axioms Calliope.Spores.C97_unsaved
#print axioms Calliope.Spores.C97_stale
#print axioms Calliope.Spores.C97_memory
#print axioms Calliope.Spores.C97_time_limit
#print axioms Calliope.Names.C98_identify_partial
#print axioms Calliope.Names.C98_verbose
#print axioms Calliope.Names.C98_added
#print axioms Calliope.Names.C98_ambiguous
#print axioms Calliope.Names.C98_seconds
#print axioms Calliope.Names.C98_gurobi_partial
#print axioms Calliope.Names.C98_gurobi_number
#print axioms Calliope.Names.C98_gurobi_update
#print axioms Calliope.Names.C98_deleted
#print axioms Calliope.Names.C98_gurobi_deleted
#print axioms Calliope.MathDoc.C99_sorted
#print axioms Calliope.MathDoc.C99_mutual
#print axioms Calliope.MathDoc.C99_valid
#print axioms Calliope.MathDoc.C99_all_partial
#print axioms Calliope.MathDoc.C99_all_active
#print axioms Calliope.MathDoc.C99_equations_partial
#print axioms Calliope.MathDoc.C99_used_in_sound
#print axioms Calliope.MathDoc.C99_used_in_partial
#print axioms Calliope.MathDoc.C99_inputs_sound
#print axioms Calliope.MathDoc.C99_inputs_partial
#print axioms Calliope.MathDoc.C99_objective
#print axioms Calliope.MathDoc.C99_format
#print axioms Calliope.MathDoc.C99_inactive_listed
#print axioms Calliope.MathDoc.C99_all_silent
#print axioms Calliope.MathDoc.C99_unused_nowhere
#print axioms Calliope.MathDoc.C99_one_letter
#print axioms Calliope.MathDoc.C99_valid_dangling
#print axioms Calliope.MathDoc.C99_deleted_still_named
#print axioms Calliope.MathDoc.C99_hidden
#print axioms Calliope.Readback.C100_loads_iff
#print axioms Calliope.Readback.C100_values
#print axioms Calliope.Readback.C100_one_unknown
#print axioms Calliope.Readback.C100_texts_for_all
#print axioms Calliope.Readback.C100_gurobi_partial
#print axioms Calliope.Readback.C100_gurobi_products
#print axioms Calliope.Grammar.C101_arithmetic
#print axioms Calliope.Grammar.C101_equation
#print axioms Calliope.Grammar.C101_sub
#print axioms Calliope.Grammar.C101_slice
#print axioms Calliope.Grammar.C101_one_meaning
#print axioms Calliope.Grammar.C101_validated
#print axioms Calliope.Grammar.C101_inactive
#print axioms Calliope.Grammar.C101_inactive_text
#print axioms Calliope.Grammar.C102_where
#print axioms Calliope.Grammar.C102_one_meaning
#print axioms Calliope.Grammar.C102_validated
#print axioms Calliope.Grammar.C102_inactive_dimension
#print axioms Calliope.Grammar.C102_two_groups
#print axioms Calliope.MathText.C103_base
#print axioms Calliope.MathText.C103_milp
#print axioms Calliope.MathText.C103_operate
#print axioms Calliope.MathText.C103_spores
#print axioms Calliope.MathText.C103_inter_cluster
#print axioms Calliope.MathText.C103_unmentioned
#print axioms Calliope.MathText.C103_extra
#print axioms Calliope.MathText.C103_base_extra
#print axioms Calliope.MathText.C103_same_name
#print axioms Calliope.MathText.C104_accepts
#print axioms Calliope.MathText.C104_names
#print axioms Calliope.MathText.C104_same
#print axioms Calliope.MathText.C104_builds
#print axioms Calliope.MathText.C104_shipped
#print axioms Calliope.MathText.C104_inactive
#print axioms Calliope.MathText.C104_not_validated
#print axioms Calliope.MathText.C104_unread
#print axioms Calliope.LatexIndex.C105_printed_partial
#print axioms Calliope.LatexIndex.C105_latex_partial
#print axioms Calliope.LatexIndex.C105_equation_partial
#print axioms Calliope.LatexIndex.C105_roll_twice
#print axioms Calliope.LatexIndex.C105_roll_twice_value
#print axioms Calliope.LatexIndex.C105_select_rolled
#print axioms Calliope.LatexIndex.C105_absent
#print axioms Calliope.LatexIndex.C105_roll_sliced
#print axioms Calliope.LatexIndex.C105_select_sum
#print axioms Calliope.LatexIndex.C105_group_same_dimension
#print axioms Calliope.LatexIndex.C105_roll_groups
#print axioms Calliope.LatexIndex.C105_shared_iterator
#print axioms Calliope.LatexWhere.C106_signs
#print axioms Calliope.LatexWhere.C106_compared
#print axioms Calliope.LatexWhere.C106_any_all
#print axioms Calliope.LatexWhere.C106_no_subscript
#print axioms Calliope.LatexWhere.C106_operand_partial
#print axioms Calliope.LatexWhere.C106_condition_partial
#print axioms Calliope.LatexWhere.C106_defined_implied
#print axioms Calliope.LatexWhere.C106_defined_two
#print axioms Calliope.LatexWhere.C106_boolean_input
#print axioms Calliope.LatexWhere.C106_infinite_input
#print axioms Calliope.Tables.C107_valid
#print axioms Calliope.Tables.C107_loaded_partial
#print axioms Calliope.Tables.C107_loaded_usable
#print axioms Calliope.Tables.C107_usable
#print axioms Calliope.Tables.C107_drop_missing
#print axioms Calliope.Tables.C107_drop_both
#print axioms Calliope.Tables.C107_no_inputs
#print axioms Calliope.Tables.C107_select_ignored
#print axioms Calliope.Tables.SchemaDemo.C107_rename_dropped
#print axioms Calliope.Tables.SchemaDemo.C107_dropped
#print axioms Calliope.Tables.SchemaDemo.C107_twice
#print axioms Calliope.Tables.SchemaDemo.C107_silent
#print axioms Calliope.Session.C108_recorded
#print axioms Calliope.Session.C108_definitions_kept
#print axioms Calliope.Session.C108_rebuild_partial
#print axioms Calliope.Session.C108_unsolved_lost
#print axioms Calliope.Session.C108_values_lost
#print axioms Calliope.Session.C108_deleted_returns
#print axioms Calliope.Session.C108_redefined
#print axioms Calliope.Session.C108_inactive_lost
#print axioms Calliope.Session.C108_add
#print axioms Calliope.Session.C108_added
#print axioms Calliope.Session.Demo.C108_added_parameter
#print axioms Calliope.Session.Demo.C108_updated_input
#print axioms Calliope.Grammar.C109_accepted
#print axioms Calliope.Grammar.C109_mentioned_accepted
#print axioms Calliope.Grammar.C109_mentioned
#print axioms Calliope.Grammar.C109_expression_partial
#print axioms Calliope.Grammar.C109_condition_partial
#print axioms Calliope.Grammar.C109_unreachable
#print axioms Calliope.Grammar.C109_inf
#print axioms Calliope.Grammar.C109_truth
#print axioms Calliope.Grammar.C109_no_dot
#print axioms Calliope.Grammar.C109_odd_names
#print axioms Calliope.Grammar.C109_odd_name
#print axioms Calliope.DataSchema.C110_valid
#print axioms Calliope.DataSchema.C110_loaded
#print axioms Calliope.DataSchema.C110_dims
#print axioms Calliope.DataSchema.C110_own_dimension
#print axioms Calliope.DataSchema.C110_loads_partial
#print axioms Calliope.DataSchema.C110_repeated
#print axioms Calliope.DataSchema.C110_mixed
#print axioms Calliope.DataSchema.C110_node
#print axioms Calliope.DataSchema.C110_node_types
#print axioms Calliope.DataSchema.C110_lengths
#print axioms Calliope.DataSchema.C110_labels
#print axioms Calliope.DataSchema.C110_twice
#print axioms Calliope.DataSchema.C110_same_label
#print axioms Calliope.DataSchema.C110_mixed_node
#print axioms Calliope.Assemble.C111_component
#print axioms Calliope.Assemble.C111_arrays
#print axioms Calliope.Assemble.C111_constraint
#print axioms Calliope.Assemble.C111_objective
#print axioms Calliope.Assemble.C111_unused
#print axioms Calliope.Assemble.C112_base
#print axioms Calliope.Assemble.C112_milp
#print axioms Calliope.Assemble.C112_operate
#print axioms Calliope.Assemble.C112_spores
#print axioms Calliope.Assemble.C112_inter_cluster
#print axioms Calliope.Assemble.C112_operate_milp_math
#print axioms Calliope.Assemble.C112_capacity_limits
#print axioms Calliope.Assemble.C112_fixed
#print axioms Calliope.Assemble.C112_low_capacity
#print axioms Calliope.Assemble.C113_order
#print axioms Calliope.Assemble.C113_consistent
#print axioms Calliope.Assemble.C113_condition
#print axioms Calliope.Assemble.C113_operand
#print axioms Calliope.Assemble.C113_late
#print axioms Calliope.Assemble.C113_late_condition
#print axioms Calliope.Assemble.C113_base
#print axioms Calliope.Assemble.C113_milp
#print axioms Calliope.Assemble.C113_operate
#print axioms Calliope.Assemble.C113_operate_milp
#print axioms Calliope.Assemble.C113_spores
#print axioms Calliope.Assemble.C113_inter_cluster
#print axioms Calliope.Coarse.C114_outflow
#print axioms Calliope.Coarse.C114_inflow
#print axioms Calliope.Coarse.C114_least
#print axioms Calliope.Coarse.C114_source_max
#print axioms Calliope.Coarse.C114_demand
#print axioms Calliope.Coarse.C114_demand_least
#print axioms Calliope.Coarse.C114_source
#print axioms Calliope.Coarse.C114_source_least
#print axioms Calliope.Coarse.C114_supply
#print axioms Calliope.Coarse.C114_balance
#print axioms Calliope.Coarse.C114_storage
#print axioms Calliope.Coarse.C114_storage_max
#print axioms Calliope.Coarse.C114_depth
#print axioms Calliope.Coarse.C114_export
#print axioms Calliope.Coarse.C114_transmission
#print axioms Calliope.Coarse.C114_conversion
#print axioms Calliope.Coarse.C114_taking
#print axioms Calliope.Coarse.C114_giving
#print axioms Calliope.Coarse.C114_cost
#print axioms Calliope.Coarse.C114_undated
#print axioms Calliope.Coarse.C114_partly
#print axioms Calliope.Coarse.C114_efficiency
#print axioms Calliope.Coarse.C114_loss
#print axioms Calliope.Coarse.C114_ramping
#print axioms Calliope.Write.C115_arithmetic
#print axioms Calliope.Write.C115_equation
#print axioms Calliope.Write.C115_sub
#print axioms Calliope.Write.C115_slice
#print axioms Calliope.Write.C115_where
#print axioms Calliope.Write.C115_different
#print axioms Calliope.Write.C115_constraint
#print axioms Calliope.Write.C115_expression
#print axioms Calliope.Write.C115_variable
#print axioms Calliope.Write.C115_check
#print axioms Calliope.Merge.C116_names
#print axioms Calliope.Merge.C116_last
#print axioms Calliope.Merge.C116_accepted
#print axioms Calliope.Merge.C116_missing
#print axioms Calliope.Merge.C116_made
#print axioms Calliope.Merge.C116_refused
#print axioms Calliope.Merge.C116_added
#print axioms Calliope.Merge.C116_mode
#print axioms Calliope.Linear.C117_mixed
#print axioms Calliope.Linear.C117_fails
#print axioms Calliope.Linear.C117_convex
#print axioms Calliope.Linear.C117_global
#print axioms Calliope.Linear.C117_base
#print axioms Calliope.Linear.C117_operate
#print axioms Calliope.Linear.C117_spores
#print axioms Calliope.Linear.C117_inter_cluster
#print axioms Calliope.Linear.C117_milp
#print axioms Calliope.Linear.C117_operate_milp
#print axioms Calliope.Linear.C117_product
#print axioms Calliope.Units.C118_rescaled
#print axioms Calliope.Units.C118_fails
#print axioms Calliope.Units.C118_plans
#print axioms Calliope.Units.C118_best
#print axioms Calliope.Units.C118_base
#print axioms Calliope.Units.C118_operate
#print axioms Calliope.Units.C118_spores
#print axioms Calliope.Units.C118_milp
#print axioms Calliope.Units.C118_big_m
#print axioms Calliope.Units.C118_inter_cluster
#print axioms Calliope.Units.C118_penalty
#print axioms Calliope.Units.C118_spores_penalty
#print axioms Calliope.Loosen.C119_plans
#print axioms Calliope.Loosen.C119_best
#print axioms Calliope.Loosen.C119_fails
#print axioms Calliope.Loosen.C119_base
#print axioms Calliope.Loosen.C119_operate
#print axioms Calliope.Loosen.C119_spores
#print axioms Calliope.Loosen.C119_inter_cluster
#print axioms Calliope.Loosen.C119_milp
#print axioms Calliope.Rename.C120_plans
#print axioms Calliope.Rename.C120_constraints
#print axioms Calliope.Rename.C120_fails
#print axioms Calliope.Rename.C120_best
#print axioms Calliope.Rename.C120_base
#print axioms Calliope.Rename.C120_operate
#print axioms Calliope.Rename.C120_spores
#print axioms Calliope.Rename.C120_inter_cluster
#print axioms Calliope.Rename.C120_milp
#print axioms Calliope.Rename.C120_named
#print axioms Calliope.Typical.C121_plans
#print axioms Calliope.Typical.C121_constraints
#print axioms Calliope.Typical.C121_fails
#print axioms Calliope.Typical.C121_repeat
#print axioms Calliope.Typical.C121_no_worse
#print axioms Calliope.Typical.C121_base
#print axioms Calliope.Typical.C121_operate
#print axioms Calliope.Typical.C121_spores
#print axioms Calliope.Typical.C121_milp
#print axioms Calliope.Typical.C121_inter_cluster
#print axioms Calliope.Typical.C121_coupling
#print axioms Calliope.Typical.C121_unweighted
#print axioms Calliope.Average.C122_averages
#print axioms Calliope.Average.C122_exact
#print axioms Calliope.Average.C122_best
#print axioms Calliope.Average.C122_base
#print axioms Calliope.Average.C122_operate
#print axioms Calliope.Average.C122_spores
#print axioms Calliope.Average.C122_milp
#print axioms Calliope.Average.C122_integers
#print axioms Calliope.Logging.C123_once
#print axioms Calliope.Logging.C123_accepts
#print axioms Calliope.Logging.C123_solver
#print axioms Calliope.Logging.C123_warnings
#print axioms Calliope.Logging.C123_rejected
#print axioms Calliope.Logging.C123_cli
#print axioms Calliope.Logging.C123_times
#print axioms Calliope.Logging.C123_write
#print axioms Calliope.Logging.C123_zero
#print axioms Calliope.BaseMath.C124_rule
#print axioms Calliope.BaseMath.C124_horizon
#print axioms Calliope.BaseMath.C124_cyclic
#print axioms Calliope.BaseMath.C124_carriers
#print axioms Calliope.Restrict.C125_builds
#print axioms Calliope.Restrict.C125_plan
#print axioms Calliope.Restrict.C125_iff
#print axioms Calliope.Restrict.C125_best
#print axioms Calliope.Restrict.C125_definitions
#print axioms Calliope.Restrict.C125_base
#print axioms Calliope.Restrict.C125_shadowed
#print axioms Calliope.BaseMath.C126_objective
#print axioms Calliope.BaseMath.C126_avoids
#print axioms Calliope.BaseMath.C126_unscored
#print axioms Calliope.BaseMath.C126_more
#print axioms Calliope.BaseMath.C126_alternative
#print axioms Calliope.Spores.C126_count
#print axioms Calliope.Copying.C127_attrdict
#print axioms Calliope.Copying.C127_copy_partial
#print axioms Calliope.Copying.C127_original_partial
#print axioms Calliope.Copying.C127_to_yaml_partial
#print axioms Calliope.Copying.C127_shared_inner_list
#print axioms Calliope.Copying.C127_attrdict_shares
#print axioms Calliope.Dates.C128_plans
#print axioms Calliope.Dates.C128_fails
#print axioms Calliope.Dates.C128_best
#print axioms Calliope.Dates.C128_base
#print axioms Calliope.Dates.C128_operate
#print axioms Calliope.Dates.C128_spores
#print axioms Calliope.Dates.C128_milp
#print axioms Calliope.Dates.C128_inter_cluster
#print axioms Calliope.Dates.C128_named
#print axioms Calliope.Versions.C129_running_partial
#print axioms Calliope.Versions.C129_configured_partial
#print axioms Calliope.Versions.C129_names
#print axioms Calliope.Versions.C129_new
#print axioms Calliope.Versions.C129_new_silent
#print axioms Calliope.Versions.C129_unnoticed
