{
 "claims": [
  {
   "property": "C01",
   "status": "partial",
   "theorems": [
    "Calliope.Dict.C01_get_key_reads",
    "Calliope.Dict.C01_set_then_get",
    "Calliope.Dict.C01_set_raises_iff",
    "Calliope.Dict.C01_set_frame_partial",
    "Calliope.Dict.C01_frame_fails",
    "Calliope.Dict.C01_set_wipes_siblings",
    "Calliope.Text.C01_dotted_recursion",
    "Calliope.Text.C01_dotted_keys"
   ],
   "note": "Reading, set-then-get and the exact error condition hold for all dictionaries. The frame condition (other keys unchanged) holds when no scalar lies on the path; it is false of the code otherwise, and C01_frame_fails / C01_set_wipes_siblings prove that."
  },
  {
   "property": "C02",
   "status": "partial",
   "theorems": [
    "Calliope.Dict.C02_union_override_partial",
    "Calliope.Dict.C02_union_loses_data"
   ],
   "note": "Holds when the override writes below no scalar of the base; C02_union_loses_data shows the code dropping unrelated data outside that case."
  },
  {
   "property": "C03",
   "status": "partial",
   "theorems": [
    "Calliope.Dict.C03_union_raises",
    "Calliope.Dict.C03_union_keeps_partial",
    "Calliope.Dict.C03_union_silently_loses"
   ],
   "note": "Repeated leaf keys always raise. Nothing is lost under the fitting condition; without it the code silently loses values although overriding was not allowed (C03_union_silently_loses)."
  },
  {
   "property": "C04",
   "status": "proved",
   "theorems": [
    "Calliope.Dict.C04_keys_nested",
    "Calliope.Dict.C04_flat_round_trip"
   ],
   "note": ""
  },
  {
   "property": "C05",
   "status": "proved",
   "theorems": [
    "Calliope.Dict.C05_del_key"
   ],
   "note": ""
  },
  {
   "property": "C06",
   "status": "proved",
   "theorems": [
    "Calliope.Dict.C06_replace"
   ],
   "note": ""
  },
  {
   "property": "C07",
   "status": "partial",
   "theorems": [
    "Calliope.ModelDefinition.C07_priority_partial",
    "Calliope.ModelDefinition.C07_kwargs_partial"
   ],
   "note": "Under the conditions that make union lossless (C02)."
  },
  {
   "property": "C08",
   "status": "partial",
   "theorems": [
    "Calliope.ModelDefinition.C08_replacement_partial",
    "Calliope.ModelDefinition.C08_replacement_overridden"
   ],
   "note": "False of the code when the scenario touches a replaced key: C08_replacement_overridden runs the heap model. The partial theorem covers scenarios silent on replaced keys."
  },
  {
   "property": "C09",
   "status": "proved",
   "theorems": [
    "Calliope.ModelDefinition.C09_expansion",
    "Calliope.ModelDefinition.C09_errors",
    "Calliope.ModelDefinition.C09_acyclic_returns",
    "Calliope.ModelDefinition.C09_circular_never_returns"
   ],
   "note": "A circular scenario definition never returns (in Python: RecursionError), proved as such."
  },
  {
   "property": "C10",
   "status": "partial",
   "theorems": [
    "Calliope.ModelDefinition.C10_order_independent_partial",
    "Calliope.ModelDefinition.C10_order_matters"
   ],
   "note": "Order independence holds when the override paths are unrelated; C10_order_matters is the counterexample otherwise (two overrides, one below a scalar of the other)."
  },
  {
   "property": "C11",
   "status": "partial",
   "theorems": [
    "Calliope.ModelDefinition.C11_chain_partial",
    "Calliope.ModelDefinition.C11_local_over_template_partial",
    "Calliope.ModelDefinition.C11_template_supplies_partial"
   ],
   "note": "Under the conditions that make union lossless (C02) and for unshared template data (see C14_order_matters)."
  },
  {
   "property": "C12",
   "status": "proved",
   "theorems": [
    "Calliope.ModelDefinition.C12_terminates",
    "Calliope.ModelDefinition.C12_circular_rejected",
    "Calliope.ModelDefinition.C12_no_false_alarm"
   ],
   "note": ""
  },
  {
   "property": "C13",
   "status": "partial",
   "theorems": [
    "Calliope.ModelDefinition.C13_no_template_key_partial",
    "Calliope.ModelDefinition.C13_nested_call_survives"
   ],
   "note": "A template call nested inside a template body is not resolved by the code; C13_nested_call_survives proves that."
  },
  {
   "property": "C14",
   "status": "partial",
   "theorems": [
    "Calliope.ModelDefinition.C14_order_independent_partial",
    "Calliope.ModelDefinition.C14_order_matters"
   ],
   "note": "False of the code when a template holds an empty dictionary (object sharing): C14_order_matters runs the heap model. The partial theorem is at value level."
  },
  {
   "property": "C15",
   "status": "partial",
   "theorems": [
    "Calliope.Imports.C15_importer_wins_partial",
    "Calliope.Imports.C15_duplicate_raises_partial",
    "Calliope.Imports.C15_circular_never_succeeds",
    "Calliope.Imports.C15_override_not_passed_on",
    "Calliope.Imports.C15_importer_loses_value"
   ],
   "note": "Under the conditions that make union lossless (C02/C03). The allow_override flag is not passed to nested imports (C15_override_not_passed_on), and outside the fitting condition the importing file can lose a value (C15_importer_loses_value)."
  },
  {
   "property": "C16",
   "status": "partial",
   "theorems": [
    "Calliope.Imports.C16_last_wins_partial",
    "Calliope.Imports.C16_unknown_name",
    "Calliope.Imports.C16_priority"
   ],
   "note": "Leaf by leaf the last math dictionary in priority order that defines it wins, under the condition that makes union lossless (C02)."
  },
  {
   "property": "C17",
   "status": "proved",
   "theorems": [
    "Calliope.Math.C17_unique_names",
    "Calliope.Math.C17_find"
   ],
   "note": ""
  },
  {
   "property": "C18",
   "status": "partial",
   "theorems": [
    "Calliope.Math.C18_expression_names",
    "Calliope.Math.C18_where_names",
    "Calliope.Registry.C18_build_contents",
    "Calliope.Registry.C18_only_active",
    "Calliope.Registry.C18_all_active",
    "Calliope.Registry.C18_inactive_variable_blocks",
    "Calliope.Registry.C18_inactive_lookup_hides_parameter"
   ],
   "note": "Name level (which names expressions and where strings may use) and build level (only active components get solver objects). A deactivated variable still blocks an active constraint of its name, and a deactivated lookup hides a parameter."
  },
  {
   "property": "C32",
   "status": "partial",
   "theorems": [
    "Calliope.Registry.C32_one_group_partial",
    "Calliope.Registry.C32_add_existing",
    "Calliope.Registry.C32_clash_leaves_list",
    "Calliope.Registry.C32_two_groups",
    "Calliope.Registry.C32_late_refusal"
   ],
   "note": "One group per name holds for histories without a failed add; a failed add under another group leaves an empty solver list behind (C32_clash_leaves_list), two groups can then hold the name and a late refusal leaves its objects."
  },
  {
   "property": "C33",
   "status": "proved",
   "theorems": [
    "Calliope.Registry.C33_build_order"
   ],
   "note": ""
  },
  {
   "property": "C34",
   "status": "proved",
   "theorems": [
    "Calliope.Equations.C34_single_equation",
    "Calliope.Equations.C34_overlap_raises",
    "Calliope.Equations.C34_order_irrelevant"
   ],
   "note": ""
  },
  {
   "property": "C19",
   "status": "proved",
   "theorems": [
    "Calliope.Config.C19_update",
    "Calliope.Config.C19_new_keys",
    "Calliope.Config.C19_idempotent",
    "Calliope.Config.C19_disjoint_commute"
   ],
   "note": "pydantic validation is a parameter of the model"
  },
  {
   "property": "C20",
   "status": "partial",
   "theorems": [
    "Calliope.Config.C20_unique_partial",
    "Calliope.Config.C20_mixed_lists_fail"
   ],
   "note": "lists that mix strings and lists are compared after tuple(), where the property fails"
  },
  {
   "property": "C21",
   "status": "partial",
   "theorems": [
    "Calliope.Serialise.C21_attrs_partial",
    "Calliope.Serialise.C21_round_trip_partial",
    "Calliope.Serialise.C21_coordinates_fail",
    "Calliope.Serialise.C21_empty_list_fails",
    "Calliope.Serialise.C21_import_entry_fails"
   ],
   "note": "fails for coordinate attributes, empty lists and dictionaries with an import entry"
  },
  {
   "property": "C22",
   "status": "partial",
   "theorems": [
    "Calliope.Serialise.C22_memory_unchanged_partial",
    "Calliope.Serialise.C22_type_error_fails"
   ],
   "note": "fails when an attribute cannot be serialised"
  },
  {
   "property": "C23",
   "status": "proved",
   "theorems": [
    "Calliope.Time.C23_resolution"
   ],
   "note": ""
  },
  {
   "property": "C24",
   "status": "proved",
   "theorems": [
    "Calliope.Time.C24_resample",
    "Calliope.Time.C24_empty_iff",
    "Calliope.Time.C24_needs_method"
   ],
   "note": "The grid of intervals is a parameter (pandas resampling rule), any strictly increasing grid starting at or before the data."
  },
  {
   "property": "C25",
   "status": "partial",
   "theorems": [
    "Calliope.Time.C25_cluster_partial",
    "Calliope.Time.C25_missing_day_fails",
    "Calliope.Time.C25_self_not_checked",
    "Calliope.Time.C25_last_only_at_midnight"
   ],
   "note": "Holds when every day is mapped, representatives represent themselves; the other theorems show the failures when that is not so."
  },
  {
   "property": "C26",
   "status": "partial",
   "theorems": [
    "Calliope.Time.C26_subset_partial",
    "Calliope.Time.C26_malformed",
    "Calliope.Time.C26_outside_raises_partial",
    "Calliope.Time.C26_empty_subset_accepted",
    "Calliope.Time.C26_overlap_rejected"
   ],
   "note": "A subset that falls between two timesteps is accepted and gives an empty axis (C26_empty_subset_accepted)."
  },
  {
   "property": "C27",
   "status": "partial",
   "theorems": [
    "Calliope.Operate.C27_cover_partial",
    "Calliope.Operate.C27_single_window_fails",
    "Calliope.Operate.C27_short_horizon_fails"
   ],
   "note": "Holds for horizon >= window and at least two windows; both failures are proved."
  },
  {
   "property": "C28",
   "status": "partial",
   "theorems": [
    "Calliope.Operate.C28_handover_partial"
   ],
   "note": "For storage with positive capacity and windows that solve."
  },
  {
   "property": "C66",
   "status": "partial",
   "theorems": [
    "Calliope.Operate.C66_window_data_partial",
    "Calliope.Operate.C66_gap_keeps_old_value",
    "Calliope.Operate.C66_lookups_not_updated"
   ],
   "note": "Holds for gap-free parameters; gaps keep the value of an earlier window and lookups are not updated, both proved."
  },
  {
   "property": "C29",
   "status": "partial",
   "theorems": [
    "Calliope.Lifecycle.C29_guards",
    "Calliope.Lifecycle.C29_histories",
    "Calliope.Lifecycle.C29_effects",
    "Calliope.Lifecycle.C29_failed_rebuild",
    "Calliope.Lifecycle.C29_solved_again",
    "Calliope.Lifecycle.C29_read_counts_as_solved"
   ],
   "note": "Guards and histories are proved for all states; a failed forced rebuild leaves a built model on an incomplete backend (C29_failed_rebuild)."
  },
  {
   "property": "C30",
   "status": "partial",
   "theorems": [
    "Calliope.Lifecycle.C30_zero_threshold",
    "Calliope.Lifecycle.C30_joined_conditions"
   ],
   "note": "Holds for optimal or feasible runs; joined termination conditions skip the threshold."
  },
  {
   "property": "C31",
   "status": "partial",
   "theorems": [
    "Calliope.Spores.C31_run",
    "Calliope.Spores.C31_refused",
    "Calliope.Spores.C31_integer_scores",
    "Calliope.Spores.C31_relative_scores",
    "Calliope.Spores.C31_random_scores",
    "Calliope.Spores.C31_evolving_scores",
    "Calliope.Spores.C31_restart_partial",
    "Calliope.Spores.C31_evolving_decreases",
    "Calliope.Spores.C31_random_undeployed",
    "Calliope.Spores.C31_restart_evolving_differs",
    "Calliope.Spores.C31_restart_limit",
    "Calliope.Spores.C31_restart_numbers"
   ],
   "note": "Results, order, stopping and the scores of every method are proved for all solver histories; with the random and evolving-average methods scores do not behave monotonically as the property says, and a restart with the evolving average is not equivalent to an uninterrupted run."
  },
  {
   "property": "C67",
   "status": "partial",
   "theorems": [
    "Calliope.Spores.C67_history_partial",
    "Calliope.Spores.C67_own_baseline_partial",
    "Calliope.Spores.C67_stale_budget",
    "Calliope.Spores.C67_limit_kept"
   ],
   "note": "Holds for a model whose cost limit is still unset; a second run keeps the first run's cost limit (C67_stale_budget)."
  },
  {
   "property": "C35",
   "status": "partial",
   "theorems": [
    "Calliope.Update.C35_nan_keeps",
    "Calliope.Update.C35_first_update",
    "Calliope.Update.C35_history_partial",
    "Calliope.Update.C35_in_place_where",
    "Calliope.Update.C35_stale_after_reorder",
    "Calliope.Update.C35_hidden_read",
    "Calliope.Update.C35_update_hides_error",
    "Calliope.Update.C35_pyomo_lookup",
    "Calliope.Update.C35_after_delete"
   ],
   "note": "The first update after a build is proved equivalent to a rebuild for all dependency graphs; histories of updates under the conditions of C35_history_partial. Outside them the property is false of the code; each failure is proved (C35_in_place_where, C35_stale_after_reorder, C35_hidden_read, C35_update_hides_error, C35_pyomo_lookup, C35_after_delete)."
  },
  {
   "property": "C36",
   "status": "partial",
   "theorems": [
    "Calliope.Update.C36_collects",
    "Calliope.Update.C36_acyclic_returns",
    "Calliope.Update.C36_cycle_never_returns",
    "Calliope.Update.C36_rebuilds_dependents",
    "Calliope.Update.C36_history_partial",
    "Calliope.Update.C36_stale_reference"
   ],
   "note": "Exact for every graph as far as the search goes, and for the dependents on a new backend and over histories with constant read sets; stale references make later rebuilds larger than needed (C36_stale_reference)."
  },
  {
   "property": "C37",
   "status": "proved",
   "theorems": [
    "Calliope.SolverObjects.C37_at_most_one",
    "Calliope.SolverObjects.C37_set_exactly_one",
    "Calliope.SolverObjects.C37_build_activates",
    "Calliope.SolverObjects.C37_failed_set_leaves_none",
    "Calliope.SolverObjects.C37_gurobi",
    "Calliope.SolverObjects.C37_gurobi_config_stale",
    "Calliope.SolverObjects.C37_gurobi_current",
    "Calliope.SolverObjects.C37_gurobi_deleted_stays"
   ],
   "note": "A failing set_objective leaves no objective active (C37_failed_set_leaves_none); with Gurobi the configuration is not updated (C37_gurobi_config_stale), and a deleted objective stays in the solver model (C37_gurobi_deleted_stays)."
  },
  {
   "property": "C38",
   "status": "partial",
   "theorems": [
    "Calliope.SolverObjects.C38_returned",
    "Calliope.SolverObjects.C38_refuses",
    "Calliope.SolverObjects.C38_refusal_partial",
    "Calliope.SolverObjects.C38_min_changed_on_refusal"
   ],
   "note": "False of the code when min may be changed and max is refused: min has been changed (C38_min_changed_on_refusal)."
  },
  {
   "property": "C39",
   "status": "partial",
   "theorems": [
    "Calliope.SolverObjects.C39_fix_outside",
    "Calliope.SolverObjects.C39_fix_fails",
    "Calliope.SolverObjects.C39_inverse",
    "Calliope.SolverObjects.C39_round_trip",
    "Calliope.SolverObjects.C39_failed_fix_keeps",
    "Calliope.SolverObjects.C39_gurobi_one_way"
   ],
   "note": "Proved in full for Pyomo; with Gurobi unfixing always raises (C39_gurobi_one_way)."
  },
  {
   "property": "C40",
   "status": "partial",
   "theorems": [
    "Calliope.Where.C40_pointwise",
    "Calliope.Where.C40_returns",
    "Calliope.Where.C40_item_by_item",
    "Calliope.Where.C40_missing_false",
    "Calliope.Where.C40_absent_parameter",
    "Calliope.Where.C40_absent_lookup",
    "Calliope.Where.C40_defined_any",
    "Calliope.Where.C40_defined_all",
    "Calliope.Where.C40_numbers"
   ],
   "note": "Proved for all conditions, nestings and arrays. False of the code: a lookup with a default that is nowhere given counts as given everywhere, and as missing once it is given for another item (C40_absent_lookup)."
  },
  {
   "property": "C41",
   "status": "partial",
   "theorems": [
    "Calliope.Where.C41_left_to_right",
    "Calliope.Where.C41_exact",
    "Calliope.Where.C41_conventional_partial",
    "Calliope.Where.C41_or_and"
   ],
   "note": "False of the code: AND and OR are one level read from left to right. C41_exact: the reading is conventional if and only if no AND comes after an OR."
  },
  {
   "property": "C42",
   "status": "partial",
   "theorems": [
    "Calliope.Arith.C42_convention_unique",
    "Calliope.Arith.C42_conventional_partial",
    "Calliope.Arith.C42_left_grouping",
    "Calliope.Arith.C42_sign_before_power",
    "Calliope.Arith.C42_power_of_power",
    "Calliope.Arith.C42_values"
   ],
   "note": "False of the code: a sign binds tighter than a power and powers group to the left. Proved for texts without those two patterns."
  },
  {
   "property": "C43",
   "status": "proved",
   "theorems": [
    "Calliope.Where.C43_grammar",
    "Calliope.Where.C43_round_trip",
    "Calliope.Arith.C43_arithmetic"
   ],
   "note": "On tokens: spelling and white space are not modelled."
  },
  {
   "property": "C45",
   "status": "partial",
   "theorems": [
    "Calliope.Where.C45_exact",
    "Calliope.Where.C45_complete",
    "Calliope.Where.C45_built_partial",
    "Calliope.Where.C45_unknown_dimension",
    "Calliope.Where.C45_dimensions",
    "Calliope.Where.C45_returns",
    "Calliope.Where.C45_not_joint"
   ],
   "note": "C45_exact says exactly where a component is built. False of the code as stated: the component condition and the equation condition are reduced to the foreach dimensions separately, so an item is built although no model item meets both (C45_not_joint)."
  },
  {
   "property": "C51",
   "status": "partial",
   "theorems": [
    "Calliope.Arith.C51_expression_partial",
    "Calliope.Arith.C51_sign_of_sum",
    "Calliope.Arith.C51_sub_expression_in_product",
    "Calliope.Arith.C51_zero_minus",
    "Calliope.Arith.C51_signed_base",
    "Calliope.Arith.C51_power_chain",
    "Calliope.Where.C51_condition_partial",
    "Calliope.Where.C51_or_and",
    "Calliope.Where.C51_or_true"
   ],
   "note": "The LaTeX text has the computed value for printable expressions and conditions; each failure of the code is proved."
  },
  {
   "property": "C44",
   "status": "proved",
   "theorems": [
    "Calliope.Expand.C44_product",
    "Calliope.Expand.C44_once",
    "Calliope.Expand.C44_exclusive",
    "Calliope.Expand.C44_exhaustive"
   ],
   "note": "For references found by the parser; see C69 for those it misses."
  },
  {
   "property": "C46",
   "status": "proved",
   "theorems": [
    "Calliope.Expr.C46_value",
    "Calliope.Expr.C46_missing",
    "Calliope.Expr.C46_names",
    "Calliope.Expr.C46_absent",
    "Calliope.Expr.C46_nested"
   ],
   "note": "About the value of the argument as the helper receives it; see C68 for operands masked beforehand."
  },
  {
   "property": "C47",
   "status": "proved",
   "theorems": [
    "Calliope.Expr.C47_position",
    "Calliope.Expr.C47_compose",
    "Calliope.Expr.C47_total",
    "Calliope.Expr.C47_missing_dim"
   ],
   "note": ""
  },
  {
   "property": "C48",
   "status": "partial",
   "theorems": [
    "Calliope.Expr.C48_window_partial",
    "Calliope.Expr.C48_printed",
    "Calliope.Expr.C48_negative"
   ],
   "note": "False of the code: N items are added where the documentation prints N+1 (C48_printed); a negative N wraps around (C48_negative)."
  },
  {
   "property": "C49",
   "status": "proved",
   "theorems": [
    "Calliope.Expr.C49_value",
    "Calliope.Expr.C49_total"
   ],
   "note": ""
  },
  {
   "property": "C50",
   "status": "partial",
   "theorems": [
    "Calliope.Expr.C50_value_partial",
    "Calliope.Expr.C50_raises",
    "Calliope.Expr.C50_outside"
   ],
   "note": "False of the code: a label outside the dimension gives a missing value unless a lookup array has no match at all (C50_raises, C50_outside)."
  },
  {
   "property": "C68",
   "status": "partial",
   "theorems": [
    "Calliope.Expr.C68_meaning",
    "Calliope.Expr.C68_returns",
    "Calliope.Expr.C68_independent_partial",
    "Calliope.Expr.C68_masked_sum"
   ],
   "note": "C68_meaning gives the exact pointwise meaning with masking of operands for every expression; independence of the condition holds when nothing is combined along a foreach dimension after an operator, and is false of the code otherwise (C68_masked_sum)."
  },
  {
   "property": "C69",
   "status": "partial",
   "theorems": [
    "Calliope.Expand.C69_resolved_partial",
    "Calliope.Expand.C69_signed_reference",
    "Calliope.Expand.C69_signed_slice"
   ],
   "note": "False of the code: a reference under a leading sign of one side of a comparison, or a slice under one in a sub-expression, is not found."
  },
  {
   "property": "C70",
   "status": "partial",
   "theorems": [
    "Calliope.Expr.C70_expression",
    "Calliope.Expr.C70_comparison",
    "Calliope.Expr.C70_comparison_unchecked"
   ],
   "note": "Proved for expressions and objectives, and for the dimensions and items of constraints; missing values in the sides of a constraint are not detected (C70_comparison_unchecked)."
  },
  {
   "property": "C71",
   "status": "proved",
   "theorems": [
    "Calliope.Build.C71_constraint",
    "Calliope.Build.C71_expression"
   ],
   "note": "Conditions are reduced to the foreach dimensions separately (see C45_not_joint); the value is for expressions that combine nothing along a foreach dimension after an operator (see C68_masked_sum)."
  },
  {
   "property": "C61",
   "status": "proved",
   "theorems": [
    "Calliope.BaseMath.C61_exactly_one",
    "Calliope.BaseMath.C61_rule"
   ],
   "note": ""
  },
  {
   "property": "C62",
   "status": "proved",
   "theorems": [
    "Calliope.BaseMath.C62_block",
    "Calliope.BaseMath.C62_horizon",
    "Calliope.BaseMath.C62_cyclic",
    "Calliope.BaseMath.C62_cluster",
    "Calliope.BaseMath.C62_lossless",
    "Calliope.BaseMath.C62_initial"
   ],
   "note": ""
  },
  {
   "property": "C63",
   "status": "proved",
   "theorems": [
    "Calliope.BaseMath.C63_balance",
    "Calliope.BaseMath.C63_system",
    "Calliope.BaseMath.C63_outflow",
    "Calliope.BaseMath.C63_inflow",
    "Calliope.BaseMath.C63_transmission",
    "Calliope.BaseMath.C63_conversion",
    "Calliope.BaseMath.C63_no_gain"
   ],
   "note": ""
  },
  {
   "property": "C64",
   "status": "partial",
   "theorems": [
    "Calliope.BaseMath.C64_cases_partial",
    "Calliope.BaseMath.C64_value",
    "Calliope.BaseMath.C64_annuity",
    "Calliope.BaseMath.C64_no_interest",
    "Calliope.BaseMath.C64_repays",
    "Calliope.BaseMath.C64_exists",
    "Calliope.BaseMath.C64_limit",
    "Calliope.BaseMath.C64_negative",
    "Calliope.BaseMath.C64_infinite"
   ],
   "note": "Proved for interest rates that are missing, zero or positive. False of the code otherwise: with a negative rate no case applies and the investment is free (C64_negative); with an infinite rate two cases apply and building fails (C64_infinite)."
  },
  {
   "property": "C65",
   "status": "partial",
   "theorems": [
    "Calliope.BaseMath.C65_value",
    "Calliope.BaseMath.C65_unweighted_partial",
    "Calliope.BaseMath.C65_error",
    "Calliope.BaseMath.Demo.C65_weights"
   ],
   "note": "False of the code: outflow is not weighted and export is counted twice (C65_error gives the exact difference, C65_weights a case)."
  },
  {
   "property": "C59",
   "status": "proved",
   "theorems": [
    "Calliope.Runs.C59_runs",
    "Calliope.Runs.C59_commands",
    "Calliope.Runs.C59_files",
    "Calliope.Runs.C59_script",
    "Calliope.Runs.C59_cluster",
    "Calliope.Runs.C59_empty_scenario",
    "Calliope.Runs.C59_options",
    "Calliope.Runs.C59_windows"
   ],
   "note": "Names are words the shell takes as they stand; extra options hold no line break or semicolon. A trailing semicolon gives an empty scenario (C59_empty_scenario)."
  },
  {
   "property": "C60",
   "status": "proved",
   "theorems": [
    "Calliope.Runs.C60_product",
    "Calliope.Runs.C60_names",
    "Calliope.Runs.C60_prefix"
   ],
   "note": ""
  },
  {
   "property": "C52",
   "status": "partial",
   "theorems": [
    "Calliope.ModelData.C52_node",
    "Calliope.ModelData.C52_tech_partial",
    "Calliope.ModelData.C52_listed_partial",
    "Calliope.ModelData.C52_origin",
    "Calliope.ModelData.C52_nothing",
    "Calliope.ModelData.C52_settings_left",
    "Calliope.ModelData.C52_not_erased",
    "Calliope.ModelData.C52_label_origin"
   ],
   "note": "Proved in full for nodes. A deactivated technology vanishes when no active node has other settings for it; otherwise building may fail (C52_settings_left, C52_not_erased). C52_origin: no value ever comes from an inactive item."
  },
  {
   "property": "C53",
   "status": "proved",
   "theorems": [
    "Calliope.ModelData.C53_value",
    "Calliope.ModelData.C53_node_wins",
    "Calliope.ModelData.C53_tech_default",
    "Calliope.ModelData.C53_indexed_over_single",
    "Calliope.ModelData.C53_carrier_at_node",
    "Calliope.ModelData.C53_node_label",
    "Calliope.ModelData.C53_labels",
    "Calliope.ModelData.C53_own_labels"
   ],
   "note": "For inputs that are built; C53_indexed_over_single and C53_carrier_at_node say which settings at nodes are refused."
  },
  {
   "property": "C54",
   "status": "proved",
   "theorems": [
    "Calliope.ModelData.C54_labels",
    "Calliope.ModelData.C54_carrier_in",
    "Calliope.ModelData.C54_carrier_out",
    "Calliope.ModelData.C54_settings",
    "Calliope.ModelData.C54_absent",
    "Calliope.ModelData.C54_loop"
   ],
   "note": "For links between two different nodes; C54_loop is about a link from a node to itself."
  },
  {
   "property": "C55",
   "status": "proved",
   "theorems": [
    "Calliope.ModelData.C55_history",
    "Calliope.ModelData.C55_labels",
    "Calliope.ModelData.C55_definitions",
    "Calliope.ModelData.C55_definition_labels",
    "Calliope.ModelData.C55_merged"
   ],
   "note": ""
  },
  {
   "property": "C56",
   "status": "proved",
   "theorems": [
    "Calliope.Clean.C56_runs",
    "Calliope.Clean.C56_labels",
    "Calliope.Clean.C56_values",
    "Calliope.Clean.C56_kept",
    "Calliope.Clean.C56_matrix",
    "Calliope.Clean.C56_inputs",
    "Calliope.Clean.C56_again"
   ],
   "note": "Cleaning again needs at least one defined combination (otherwise the carrier inputs are gone and it raises)."
  },
  {
   "property": "C57",
   "status": "partial",
   "theorems": [
    "Calliope.Clean.C57_labels",
    "Calliope.Clean.C57_values",
    "Calliope.Clean.C57_matrix",
    "Calliope.Clean.C57_marked",
    "Calliope.Clean.C57_two_nodes",
    "Calliope.Clean.C57_kept_partial",
    "Calliope.Clean.C57_others",
    "Calliope.Clean.C57_other_carriers"
   ],
   "note": "No link is left hanging (C57_two_nodes), and links with the same carriers at both ends are kept. False of the code for one-way links with different carriers at their ends, which any selection removes (C57_other_carriers)."
  },
  {
   "property": "C58",
   "status": "proved",
   "theorems": [
    "Calliope.Clean.C58_colour",
    "Calliope.Clean.C58_all",
    "Calliope.Clean.C58_user"
   ],
   "note": ""
  },
  {
   "property": "C72",
   "status": "proved",
   "theorems": [
    "Calliope.Clean.C72_distance",
    "Calliope.Clean.C72_fails",
    "Calliope.Clean.C72_unknown"
   ],
   "note": "The distance between two nodes is any function; conversion of units is part of it."
  },
  {
   "property": "C73",
   "status": "proved",
   "theorems": [
    "Calliope.Tables.C73_value",
    "Calliope.Tables.C73_clash",
    "Calliope.Tables.C73_dims",
    "Calliope.Tables.C73_labels",
    "Calliope.Tables.C73_protected",
    "Calliope.Tables.C73_loads",
    "Calliope.Tables.C73_transposed"
   ],
   "note": "For tables whose definition names all dimensions (an axis without dimensions has a single label)."
  },
  {
   "property": "C74",
   "status": "proved",
   "theorems": [
    "Calliope.Tables.C74_nodes",
    "Calliope.Tables.C74_links",
    "Calliope.Tables.C74_lookup",
    "Calliope.Tables.C74_lookup_dims",
    "Calliope.Tables.C74_false_counts"
   ],
   "note": "Finding: the value in a lookup table is not looked at, so a cell that says false counts as given (C74_false_counts)."
  },
  {
   "property": "C75",
   "status": "partial",
   "theorems": [
    "Calliope.Tables.C75_techs",
    "Calliope.Tables.C75_tech_settings",
    "Calliope.Tables.C75_nodes",
    "Calliope.Tables.C75_node_settings",
    "Calliope.Tables.C75_data",
    "Calliope.Tables.C75_once",
    "Calliope.Tables.C75_values",
    "Calliope.Tables.C75_sound",
    "Calliope.Tables.C75_links",
    "Calliope.Tables.C75_deactivated"
   ],
   "note": "False in the last part: if YAML deactivates a technology for which a table has a value at a node, building raises a KeyError instead (C75_deactivated). All other parts are proved; C75_sound carries C52 to C55 over to the definition that results."
  },
  {
   "property": "C76",
   "status": "proved",
   "theorems": [
    "Calliope.BaseMath.C76_within",
    "Calliope.BaseMath.C76_hours"
   ],
   "note": "C76_hours: what is left of the starting level at any hour of the day meets the hypothesis of C76_within."
  },
  {
   "property": "C77",
   "status": "partial",
   "theorems": [
    "Calliope.BaseMath.C77_within_day",
    "Calliope.BaseMath.C77_next_day",
    "Calliope.BaseMath.C77_period",
    "Calliope.BaseMath.C77_initial_again",
    "Calliope.BaseMath.C77_first_day",
    "Calliope.BaseMath.C77_cyclic_initial"
   ],
   "note": "Holds within days, from day to day of cyclic storage and over the whole period. False of the code for storage that is not cyclic: the initial energy appears again on every date of the first representative day (C77_initial_again), and the first date starts with the initial level as a fraction (C77_first_day). With an initial level for cyclic storage, the first date starts with more (C77_cyclic_initial)."
  },
  {
   "property": "C78",
   "status": "partial",
   "theorems": [
    "Calliope.BaseMath.C78_outflow",
    "Calliope.BaseMath.C78_inflow",
    "Calliope.BaseMath.C78_least_outflow",
    "Calliope.BaseMath.C78_source",
    "Calliope.BaseMath.C78_storage",
    "Calliope.BaseMath.C78_depth",
    "Calliope.BaseMath.C78_export",
    "Calliope.BaseMath.C78_idle",
    "Calliope.BaseMath.C78_running",
    "Calliope.BaseMath.C78_unit_capacity",
    "Calliope.BaseMath.C78_units",
    "Calliope.BaseMath.C78_milp_partial",
    "Calliope.BaseMath.C78_unlimited",
    "Calliope.BaseMath.LimitDemo.C78_outflow_above_capacity"
   ],
   "note": "Holds for the base math, and with integer dispatch for units of a given size. False of the code for integer dispatch without flow_cap_per_unit: no constraint limits flows then (C78_unlimited), and all constraints and bounds of the math allow an outflow of 100 for a technology of capacity 1 with no unit running (C78_outflow_above_capacity)."
  },
  {
   "property": "C79",
   "status": "proved",
   "theorems": [
    "Calliope.BaseMath.C79_items",
    "Calliope.BaseMath.C79_exists",
    "Calliope.BaseMath.C79_values"
   ],
   "note": ""
  },
  {
   "property": "C81",
   "status": "partial",
   "theorems": [
    "Calliope.BaseMath.C81_investment",
    "Calliope.BaseMath.C81_breakdown",
    "Calliope.BaseMath.C81_annual",
    "Calliope.BaseMath.C81_objective",
    "Calliope.BaseMath.C81_link",
    "Calliope.BaseMath.C81_link_yearly"
   ],
   "note": "Integer purchase costs are left out. False in one part: the fixed yearly price of a link is counted at both of its ends (C81_link_yearly); investment is counted once (C81_link)."
  },
  {
   "property": "C82",
   "status": "proved",
   "theorems": [
    "Calliope.BaseMath.C82_slack"
   ],
   "note": ""
  },
  {
   "property": "C80",
   "status": "proved",
   "theorems": [
    "Calliope.BaseMath.C80_async",
    "Calliope.BaseMath.C80_cut"
   ],
   "note": "C80_cut: the flows of all carriers together are cut at bigM."
  },
  {
   "property": "C83",
   "status": "partial",
   "theorems": [
    "Calliope.BaseMath.C83_capacity",
    "Calliope.BaseMath.C83_storage",
    "Calliope.BaseMath.C83_minimum",
    "Calliope.BaseMath.C83_total",
    "Calliope.BaseMath.C83_total_ignored",
    "Calliope.BaseMath.C83_available",
    "Calliope.BaseMath.C83_least",
    "Calliope.BaseMath.C83_least_continuous",
    "Calliope.BaseMath.C83_storage_minimum",
    "Calliope.BaseMath.C83_area_minimum",
    "Calliope.BaseMath.C83_source_minimum",
    "Calliope.BaseMath.C83_storage_units",
    "Calliope.BaseMath.C83_total_capacity",
    "Calliope.BaseMath.UnitDemo.C83_too_few"
   ],
   "note": "False in two parts: the smallest number of units at all nodes has no effect unless a largest number is given too (C83_total_ignored, C83_too_few), and the smallest capacity at all nodes is asked for once per unit bought (C83_total_capacity). The other parts are proved."
  },
  {
   "property": "C84",
   "status": "partial",
   "theorems": [
    "Calliope.BaseMath.C84_demand",
    "Calliope.BaseMath.C84_demand_least",
    "Calliope.BaseMath.C84_source",
    "Calliope.BaseMath.C84_source_least",
    "Calliope.BaseMath.C84_supply",
    "Calliope.BaseMath.C84_supply_partial",
    "Calliope.BaseMath.SupplyDemo.C84_twice"
   ],
   "note": "The constraints are proved equivalent to what the property says of them. False of the code in the last part for supply of several carriers: each carrier gets all that is taken from the source, so that more comes out than goes in (C84_twice); C84_supply_partial is for one carrier."
  },
  {
   "property": "C85",
   "status": "proved",
   "theorems": [
    "Calliope.BaseMath.C85_step",
    "Calliope.BaseMath.C85_steps"
   ],
   "note": "The limit is per time step whatever its length, although the unit of the rate is documented as per hour."
  },
  {
   "property": "C87",
   "status": "partial",
   "theorems": [
    "Calliope.BaseMath.C87_raises",
    "Calliope.BaseMath.C87_passes",
    "Calliope.BaseMath.C87_errors",
    "Calliope.BaseMath.C87_warnings",
    "Calliope.BaseMath.C87_inactive",
    "Calliope.BaseMath.C87_base_tech",
    "Calliope.BaseMath.C87_distance",
    "Calliope.BaseMath.C87_negative_cost",
    "Calliope.BaseMath.C87_finite",
    "Calliope.BaseMath.C87_initial_partial",
    "Calliope.BaseMath.C87_initial_infinite",
    "Calliope.BaseMath.C87_export",
    "Calliope.BaseMath.C87_location_partial",
    "Calliope.BaseMath.C87_location_missed",
    "Calliope.BaseMath.C87_clustered",
    "Calliope.BaseMath.C87_units",
    "Calliope.BaseMath.C87_distance_units",
    "Calliope.BaseMath.C87_warned",
    "Calliope.BaseMath.C87_operate",
    "Calliope.BaseMath.ChecksDemo.C87_half_location",
    "Calliope.BaseMath.ChecksDemo.C87_full_of_storage",
    "Calliope.BaseMath.ChecksDemo.C87_no_storage"
   ],
   "note": "The first part is proved for every list of checks; the second is false of the code in two cases: a node with only one of latitude and longitude passes (C87_location_missed, C87_half_location), and so does an infinite initial level (C87_initial_infinite, C87_full_of_storage). Finding: the check that asks for inter-cluster storage stops clustered models without any storage (C87_clustered, C87_no_storage)."
  },
  {
   "property": "C88",
   "status": "partial",
   "theorems": [
    "Calliope.Clean.C88_absent",
    "Calliope.Clean.C88_default_partial",
    "Calliope.Clean.C88_given",
    "Calliope.Clean.C88_false_beside",
    "Calliope.Clean.DefaultsDemo.C88_lost"
   ],
   "note": "False of the code for Boolean inputs: where one is given for any item, all items that leave it out have false (C88_false_beside), so that cyclic_storage, true by default, is off for them (C88_lost)."
  },
  {
   "property": "C86",
   "status": "partial",
   "theorems": [
    "Calliope.BaseMath.C86_capacity_factor",
    "Calliope.BaseMath.C86_fraction",
    "Calliope.BaseMath.C86_systemwide",
    "Calliope.BaseMath.C86_systemwide_fraction",
    "Calliope.BaseMath.C86_levelised",
    "Calliope.BaseMath.C86_levelised_again",
    "Calliope.BaseMath.C86_total_levelised",
    "Calliope.BaseMath.C86_total_again",
    "Calliope.BaseMath.C86_unmet",
    "Calliope.BaseMath.C86_curtailment",
    "Calliope.BaseMath.C86_curtailed_partial",
    "Calliope.BaseMath.C86_curtailment_given",
    "Calliope.BaseMath.C86_total_curtailment",
    "Calliope.BaseMath.C86_total_curtailed_partial",
    "Calliope.BaseMath.C86_constant_source",
    "Calliope.BaseMath.PostDemo.C86_wood_twice",
    "Calliope.BaseMath.PostDemo.C86_heat_from_sun",
    "Calliope.BaseMath.PostDemo.C86_negative",
    "Calliope.BaseMath.PostDemo.C86_constant"
   ],
   "note": "Capacity factors and the unmet sum are proved in full. False of the code: levelised costs of several carriers count the costs once per carrier (C86_levelised_again, C86_total_again); curtailment is negative where the use asked for is above the source (C86_curtailment_given); total curtailment does not weight time steps and is negative where the source is given once for all time steps (C86_constant_source). The other cases of curtailment are proved."
  },
  {
   "property": "C89",
   "status": "partial",
   "theorems": [
    "Calliope.BaseMath.C89_share_least",
    "Calliope.BaseMath.C89_share_most",
    "Calliope.BaseMath.C89_source",
    "Calliope.BaseMath.C89_area",
    "Calliope.BaseMath.C89_no_area",
    "Calliope.BaseMath.C89_site",
    "Calliope.BaseMath.C89_total_most",
    "Calliope.BaseMath.C89_total_least",
    "Calliope.BaseMath.C89_link",
    "Calliope.BaseMath.C89_link_twice",
    "Calliope.BaseMath.C89_least",
    "Calliope.BaseMath.C89_least_blocks"
   ],
   "note": "Each rule is proved equivalent to what the property says of it. Two surprises: the limit on the capacity at all nodes together counts a link at both ends (C89_link_twice), and a least outflow given for a technology also holds for the carriers it only takes in, so that a conversion technology with it can take in nothing (C89_least_blocks)."
  },
  {
   "property": "C90",
   "status": "partial",
   "theorems": [
    "Calliope.Results.C90_values",
    "Calliope.Results.C90_prices_partial",
    "Calliope.Results.C90_stale",
    "Calliope.Results.C90_integer",
    "Calliope.Results.C90_operate_partial",
    "Calliope.Results.C90_operate_lost",
    "Calliope.Results.C90_operate_again",
    "Calliope.Results.C90_rebuild",
    "Calliope.Results.C90_warmstart",
    "Calliope.Results.C90_options",
    "Calliope.Results.C90_gurobi_options_partial",
    "Calliope.Results.C90_gurobi_warmstart",
    "Calliope.Results.Demo.C90_overwritten"
   ],
   "note": "False of the code in six ways. In operate mode the shadow prices asked for are lost from the first window on that has another number of time steps (C90_operate_lost; there always is one when the horizon is longer than the window, C90_rebuild), and in all windows when the model is solved again (C90_operate_again). A solve by CBC after one by another solver has the shadow prices of the earlier solve (C90_stale, given that Pyomo leaves an inactive suffix alone). A global expression that has the name of a shadow price is overwritten (C90_overwritten). The warm start has no effect with Pyomo (C90_warmstart). With Gurobi, a value of LPWarmStart among the options is overwritten (C90_gurobi_warmstart). The rest is proved."
  },
  {
   "property": "C91",
   "status": "partial",
   "theorems": [
    "Calliope.Piecewise.C91_items",
    "Calliope.Piecewise.C91_meaning_partial",
    "Calliope.Piecewise.C91_breakpoint_partial",
    "Calliope.Piecewise.C91_range_partial",
    "Calliope.Piecewise.C91_accepted",
    "Calliope.Piecewise.C91_breakpoints_dimension",
    "Calliope.Piecewise.C91_inactive",
    "Calliope.Piecewise.Demo.C91_mispaired"
   ],
   "note": "False of the code if x is missing at one breakpoint and y at another: missing values are dropped separately, so that values of different breakpoints are paired (C91_mispaired). Proved if at each breakpoint both values are given or none. An inactive definition over breakpoints is an error too (C91_breakpoints_dimension)."
  },
  {
   "property": "C92",
   "status": "partial",
   "theorems": [
    "Calliope.Cli.C92_reads",
    "Calliope.Cli.C92_lp",
    "Calliope.Cli.C92_exit_partial",
    "Calliope.Cli.C92_only",
    "Calliope.Cli.C92_written",
    "Calliope.Cli.C92_not_optimal",
    "Calliope.Cli.C92_logs_lost",
    "Calliope.Cli.C92_csv_first",
    "Calliope.Cli.Demo.C92_logs_asked"
   ],
   "note": "False of the code with --save_logs: the option is given to solve() as \"solve.save_logs\", which is the entry solve.solve.save_logs of the configuration, so that it is lost or makes the command fail (C92_logs_lost, C92_logs_asked); the same holds for the path of SPORES results. If the CSV directory exists, NetCDF is not saved either (C92_csv_first). Proved without those two options."
  },
  {
   "property": "C93",
   "status": "partial",
   "theorems": [
    "Calliope.SaveLoad.C93_done",
    "Calliope.SaveLoad.C93_new",
    "Calliope.SaveLoad.C93_reopen",
    "Calliope.SaveLoad.C93_inputs_partial",
    "Calliope.SaveLoad.C93_fresh",
    "Calliope.SaveLoad.C93_loses",
    "Calliope.SaveLoad.Demo.C93_subset_loses",
    "Calliope.SaveLoad.C93_always_solved",
    "Calliope.SaveLoad.C93_no_base",
    "Calliope.SaveLoad.C93_no_attrs",
    "Calliope.SaveLoad.C93_interrupted",
    "Calliope.SaveLoad.C93_no_file",
    "Calliope.SaveLoad.C93_replaces",
    "Calliope.SaveLoad.C93_cluster_fixed"
   ],
   "note": "False of the code in two ways. Every model that is read counts as solved, also one that was never solved (C93_always_solved). Inputs are cleaned again on reading: values that belong to nothing defined, as a subset of carriers can leave them, are removed then (C93_loses, Demo.C93_subset_loses). Inputs are proved to be kept if there is nothing left to clean (C93_inputs_partial), which holds of every new model if the time steps and subsets asked for keep it so (C93_fresh). What a group gives back is what was written to it: NetCDF encoding is not modelled here (attributes: see the property on serialisation)."
  },
  {
   "property": "C94",
   "status": "proved",
   "theorems": [
    "Calliope.Csv.C94_rows",
    "Calliope.Csv.C94_files",
    "Calliope.Csv.C94_others",
    "Calliope.Csv.C94_exists",
    "Calliope.Csv.C94_interrupted"
   ],
   "note": "A file is written as a whole or not at all; how pandas formats numbers and quotes labels is not modelled."
  },
  {
   "property": "C95",
   "status": "partial",
   "theorems": [
    "Calliope.BaseMath.C95_purchase_partial",
    "Calliope.BaseMath.C95_link",
    "Calliope.BaseMath.C95_investment_partial",
    "Calliope.BaseMath.C95_breakdown_partial",
    "Calliope.BaseMath.C95_annual_partial",
    "Calliope.BaseMath.C95_operate",
    "Calliope.BaseMath.C95_unpriced",
    "Calliope.BaseMath.MilpCostDemo.C95_distance_only"
   ],
   "note": "False of the code for a link with a price per distance but no price for its purchase: its purchases cost nothing (C95_unpriced, C95_distance_only). The partial theorems assume that such links have both prices."
  },
  {
   "property": "C96",
   "status": "partial",
   "theorems": [
    "Calliope.Problem.C96_pyomo",
    "Calliope.Problem.C96_pyomo_solution",
    "Calliope.Problem.C96_gurobi_held",
    "Calliope.Problem.C96_gurobi_solution",
    "Calliope.Problem.C96_gurobi_partial",
    "Calliope.Problem.C96_gurobi_piecewise",
    "Calliope.Problem.C96_gurobi_failed"
   ],
   "note": "Proved in full for Pyomo. False of the code for Gurobi: deleting a piecewise constraint leaves it in the problem, so that after an update of its breakpoints the old curve holds next to the new one (C96_gurobi_piecewise), and what a failing call created stays (C96_gurobi_failed). C96_gurobi_partial assumes that neither happens; nothing is ever missing (C96_gurobi_held)."
  },
  {
   "property": "C97",
   "status": "partial",
   "theorems": [
    "Calliope.Spores.C97_crash_partial",
    "Calliope.Spores.C97_content",
    "Calliope.Spores.C97_saved_partial",
    "Calliope.Spores.C97_restart_partial",
    "Calliope.Spores.C97_unsaved",
    "Calliope.Spores.C97_stale",
    "Calliope.Spores.C97_memory",
    "Calliope.Spores.C97_time_limit"
   ],
   "note": "False of the code for a solver that stops early with a solution, such as at a time limit: its results are loaded and kept in memory, but the file is not written (C97_unsaved, C97_time_limit). The partial theorems are for calls that end with optimal or feasible. Files of an earlier run with more SPORES stay in the folder (C97_stale)."
  },
  {
   "property": "C98",
   "status": "partial",
   "theorems": [
    "Calliope.Names.C98_identify_partial",
    "Calliope.Names.C98_verbose",
    "Calliope.Names.C98_added",
    "Calliope.Names.C98_ambiguous",
    "Calliope.Names.C98_seconds",
    "Calliope.Names.C98_gurobi_partial",
    "Calliope.Names.C98_gurobi_number",
    "Calliope.Names.C98_gurobi_update",
    "Calliope.Names.C98_deleted",
    "Calliope.Names.C98_gurobi_deleted"
   ],
   "note": "Proved for Pyomo if no label has a comma followed by a blank, or a backslash, and times are on whole minutes. Otherwise it is false of the code: two objects can have the same name (C98_ambiguous), and the times in the backend are cut to the minute (C98_seconds). With Gurobi, verbose_strings raises TypeError for objects with a number among their coordinates, such as those over clusters (C98_gurobi_number), and names are lost when inputs are updated (C98_gurobi_update)."
  },
  {
   "property": "C99",
   "status": "partial",
   "theorems": [
    "Calliope.MathDoc.C99_sorted",
    "Calliope.MathDoc.C99_mutual",
    "Calliope.MathDoc.C99_valid",
    "Calliope.MathDoc.C99_all_partial",
    "Calliope.MathDoc.C99_all_active",
    "Calliope.MathDoc.C99_equations_partial",
    "Calliope.MathDoc.C99_used_in_sound",
    "Calliope.MathDoc.C99_used_in_partial",
    "Calliope.MathDoc.C99_inputs_sound",
    "Calliope.MathDoc.C99_inputs_partial",
    "Calliope.MathDoc.C99_objective",
    "Calliope.MathDoc.C99_format",
    "Calliope.MathDoc.C99_inactive_listed",
    "Calliope.MathDoc.C99_all_silent",
    "Calliope.MathDoc.C99_unused_nowhere",
    "Calliope.MathDoc.C99_one_letter",
    "Calliope.MathDoc.C99_valid_dangling",
    "Calliope.MathDoc.C99_deleted_still_named",
    "Calliope.MathDoc.C99_hidden"
   ],
   "note": "False of the code in several places, each proved. With include='all': deactivated variables and piecewise constraints are listed (C99_inactive_listed), and a component that exists nowhere in this model is listed without its equations (C99_all_silent, C99_unused_nowhere). A parameter with a one-letter name is not reported as used in the bounds of a variable whose name has that letter (C99_one_letter). With include='valid', inputs are reported as used in components that are not in the document (C99_valid_dangling). A deleted component stays in the lists of others (C99_deleted_still_named). A deactivated postprocessed expression hides a component of the same name (C99_hidden). Rendering to LaTeX is not modelled: a text is the list of its equations."
  },
  {
   "property": "C100",
   "status": "partial",
   "theorems": [
    "Calliope.Readback.C100_loads_iff",
    "Calliope.Readback.C100_values",
    "Calliope.Readback.C100_one_unknown",
    "Calliope.Readback.C100_texts_for_all",
    "Calliope.Readback.C100_gurobi_partial",
    "Calliope.Readback.C100_gurobi_products"
   ],
   "note": "Whenever results load, they are right (C100_values). False of the code otherwise: a single variable without a value in a single item of an expression makes the whole load raise ValueError, since the whole array then becomes texts (C100_one_unknown, C100_texts_for_all); with Gurobi, a product of variables in an expression or objective does so for every solution (C100_gurobi_products), while for linear problems the two interfaces agree (C100_gurobi_partial)."
  },
  {
   "property": "C101",
   "status": "proved",
   "theorems": [
    "Calliope.Grammar.C101_arithmetic",
    "Calliope.Grammar.C101_equation",
    "Calliope.Grammar.C101_sub",
    "Calliope.Grammar.C101_slice",
    "Calliope.Grammar.C101_one_meaning",
    "Calliope.Grammar.C101_validated",
    "Calliope.Grammar.C101_inactive",
    "Calliope.Grammar.C101_inactive_text"
   ],
   "note": "The last sentence carries the condition because the code needs it: a string that names an inactive component is validated, and then is not accepted when the problem is built (C101_inactive), or, in the arguments of a helper function, is read as a text instead of the component (C101_inactive_text)."
  },
  {
   "property": "C102",
   "status": "proved",
   "theorems": [
    "Calliope.Grammar.C102_where",
    "Calliope.Grammar.C102_one_meaning",
    "Calliope.Grammar.C102_validated",
    "Calliope.Grammar.C102_inactive_dimension",
    "Calliope.Grammar.C102_two_groups"
   ],
   "note": "The conditions of the last sentence are needed: C102_inactive_dimension and C102_two_groups show strings that pass the validation and are not accepted, or stand for something else, when the problem is built."
  },
  {
   "property": "C103",
   "status": "proved",
   "theorems": [
    "Calliope.MathText.C103_base",
    "Calliope.MathText.C103_milp",
    "Calliope.MathText.C103_operate",
    "Calliope.MathText.C103_spores",
    "Calliope.MathText.C103_inter_cluster",
    "Calliope.MathText.C103_unmentioned",
    "Calliope.MathText.C103_extra",
    "Calliope.MathText.C103_base_extra",
    "Calliope.MathText.C103_same_name"
   ],
   "note": "The condition on names is needed (C103_same_name: with a parameter in place of a variable the math is accepted, and the conditions with that name change their meaning). YAML is read by tools/gen_math.py, not by the model; titles, units and defaults are left out; other combinations of modes and extra math are covered by C103_extra only where they leave the names that strings mention as they are."
  },
  {
   "property": "C104",
   "status": "proved",
   "theorems": [
    "Calliope.MathText.C104_accepts",
    "Calliope.MathText.C104_names",
    "Calliope.MathText.C104_same",
    "Calliope.MathText.C104_builds",
    "Calliope.MathText.C104_shipped",
    "Calliope.MathText.C104_inactive",
    "Calliope.MathText.C104_not_validated",
    "Calliope.MathText.C104_unread"
   ],
   "note": "The condition on activity is needed (C104_inactive). The strings of postprocessed arrays and of checks are not validated at all (C104_not_validated, C104_unread): a math with a string there that cannot be read passes. References to sub-expressions and slices that are not defined, and piecewise constraints, are left out."
  },
  {
   "property": "C105",
   "status": "partial",
   "theorems": [
    "Calliope.LatexIndex.C105_printed_partial",
    "Calliope.LatexIndex.C105_latex_partial",
    "Calliope.LatexIndex.C105_equation_partial",
    "Calliope.LatexIndex.C105_roll_twice",
    "Calliope.LatexIndex.C105_roll_twice_value",
    "Calliope.LatexIndex.C105_select_rolled",
    "Calliope.LatexIndex.C105_absent",
    "Calliope.LatexIndex.C105_roll_sliced",
    "Calliope.LatexIndex.C105_select_sum",
    "Calliope.LatexIndex.C105_group_same_dimension",
    "Calliope.LatexIndex.C105_roll_groups",
    "Calliope.LatexIndex.C105_shared_iterator"
   ],
   "note": "False of the code in the cases listed, each proved: arrays rolled twice, labels looked up in a rolled array, sums over an absent dimension, what is rolled after being sliced by a lookup, sums below a lookup, groups that are labels of the grouped dimension, rolling along the group dimension, dimensions that share an iterator. Proved for all other expressions (Documented, Iterators). sum_next_n is left out. Parentheses and operators are the subject of C51. C105_latex_partial is about the string that the code writes with regular expressions, for names without braces, commas and backslashes."
  },
  {
   "property": "C106",
   "status": "partial",
   "theorems": [
    "Calliope.LatexWhere.C106_signs",
    "Calliope.LatexWhere.C106_compared",
    "Calliope.LatexWhere.C106_any_all",
    "Calliope.LatexWhere.C106_no_subscript",
    "Calliope.LatexWhere.C106_operand_partial",
    "Calliope.LatexWhere.C106_condition_partial",
    "Calliope.LatexWhere.C106_defined_implied",
    "Calliope.LatexWhere.C106_defined_two",
    "Calliope.LatexWhere.C106_boolean_input",
    "Calliope.LatexWhere.C106_infinite_input"
   ],
   "note": "False of the code for Boolean inputs (printed as existing although false), infinite inputs, and defined() of several dimensions, which is printed as one condition for each dimension and evaluated for all together; each is proved. Proved for all other operands (Plain) and conditions made of them. And, or and not in the text are the subject of C51."
  },
  {
   "property": "C107",
   "status": "partial",
   "theorems": [
    "Calliope.Tables.C107_valid",
    "Calliope.Tables.C107_loaded_partial",
    "Calliope.Tables.C107_loaded_usable",
    "Calliope.Tables.C107_usable",
    "Calliope.Tables.C107_drop_missing",
    "Calliope.Tables.C107_drop_both",
    "Calliope.Tables.C107_no_inputs",
    "Calliope.Tables.C107_select_ignored",
    "Calliope.Tables.SchemaDemo.C107_rename_dropped",
    "Calliope.Tables.SchemaDemo.C107_dropped",
    "Calliope.Tables.SchemaDemo.C107_twice",
    "Calliope.Tables.SchemaDemo.C107_silent"
   ],
   "note": "False of the code both ways: definitions that drop a dimension that is not there or is on both axes, or that name no inputs, are accepted although no table loads by them, and one that renames a dimension that is then dropped is rejected although tables load by it. A selection along a dimension that is not there is accepted and has no effect. Proved: what is accepted, that every definition by which a table loads (renaming only to dimensions that are kept) is accepted, and which accepted definitions load some table. The pattern of names is not modelled."
  },
  {
   "property": "C108",
   "status": "partial",
   "theorems": [
    "Calliope.Session.C108_recorded",
    "Calliope.Session.C108_definitions_kept",
    "Calliope.Session.C108_rebuild_partial",
    "Calliope.Session.C108_unsolved_lost",
    "Calliope.Session.C108_values_lost",
    "Calliope.Session.C108_deleted_returns",
    "Calliope.Session.C108_redefined",
    "Calliope.Session.C108_inactive_lost",
    "Calliope.Session.C108_add",
    "Calliope.Session.C108_added",
    "Calliope.Session.Demo.C108_added_parameter",
    "Calliope.Session.Demo.C108_updated_input"
   ],
   "note": "False of the code: the math never forgets or changes a definition, so deleted components return, a component that was deleted and added with another definition gets its old one back (also when an input it refers to is updated), a component that the math has as inactive is lost, and values of updated inputs and added parameters are lost; each is proved. Proved for histories that only add components under new names. Order of components, what definitions evaluate to and operate mode are not modelled here."
  },
  {
   "property": "C109",
   "status": "partial",
   "theorems": [
    "Calliope.Grammar.C109_accepted",
    "Calliope.Grammar.C109_mentioned_accepted",
    "Calliope.Grammar.C109_mentioned",
    "Calliope.Grammar.C109_expression_partial",
    "Calliope.Grammar.C109_condition_partial",
    "Calliope.Grammar.C109_unreachable",
    "Calliope.Grammar.C109_inf",
    "Calliope.Grammar.C109_truth",
    "Calliope.Grammar.C109_no_dot",
    "Calliope.Grammar.C109_odd_names",
    "Calliope.Grammar.C109_odd_name"
   ],
   "note": "False of the code: the pattern lets any first character pass but digits, underscores and `^`, and letters beyond ASCII; such a component cannot be referred to in any string, and strings are read as if it were not there. Components called `inf` are read as the number, inputs called `true` or `false` as truth values. Proved: which names are accepted, that strings mention accepted names only, which accepted names can be mentioned, and that these are read as the component or input unless they are one of those words."
  },
  {
   "property": "C110",
   "status": "partial",
   "theorems": [
    "Calliope.DataSchema.C110_valid",
    "Calliope.DataSchema.C110_loaded",
    "Calliope.DataSchema.C110_dims",
    "Calliope.DataSchema.C110_own_dimension",
    "Calliope.DataSchema.C110_loads_partial",
    "Calliope.DataSchema.C110_repeated",
    "Calliope.DataSchema.C110_mixed",
    "Calliope.DataSchema.C110_node",
    "Calliope.DataSchema.C110_node_types",
    "Calliope.DataSchema.C110_lengths",
    "Calliope.DataSchema.C110_labels",
    "Calliope.DataSchema.C110_twice",
    "Calliope.DataSchema.C110_same_label",
    "Calliope.DataSchema.C110_mixed_node"
   ],
   "note": "False of the code both ways: lengths of data and of entries are not checked by validation, nor that a label is given alone and again in a list; an entry with one label for two dimensions (a technology and a carrier of one name) is rejected although it could be loaded, a number beside a list ends in a TypeError, and a node with an integer and a float as coordinates is rejected. Proved: exactly what validation accepts, exactly what can be loaded, that accepted data with fitting lengths is loaded, and that technologies and nodes do not repeat their dimension."
  },
  {
   "property": "C111",
   "status": "proved",
   "theorems": [
    "Calliope.Assemble.C111_component",
    "Calliope.Assemble.C111_arrays",
    "Calliope.Assemble.C111_constraint",
    "Calliope.Assemble.C111_objective",
    "Calliope.Assemble.C111_unused"
   ],
   "note": ""
  },
  {
   "property": "C112",
   "status": "partial",
   "theorems": [
    "Calliope.Assemble.C112_base",
    "Calliope.Assemble.C112_milp",
    "Calliope.Assemble.C112_operate",
    "Calliope.Assemble.C112_spores",
    "Calliope.Assemble.C112_inter_cluster",
    "Calliope.Assemble.C112_operate_milp_math",
    "Calliope.Assemble.C112_capacity_limits",
    "Calliope.Assemble.C112_fixed",
    "Calliope.Assemble.C112_low_capacity"
   ],
   "note": "True of base, operate and SPORES mode, of milp and of storage_inter_cluster as extra math of base mode. False of operate mode with milp as extra math: operate.yaml deactivates four of the constraints of milp.yaml that limit capacities, but not flow_capacity_max_purchase_milp, storage_capacity_max_purchase_milp, flow_capacity_minimum, storage_capacity_minimum, area_use_minimum and source_capacity_minimum, in which only inputs stand once capacities are inputs. Proved: they are the same for all decisions, so a given capacity below its minimum makes every plan infeasible."
  },
  {
   "property": "C113",
   "status": "proved",
   "theorems": [
    "Calliope.Assemble.C113_order",
    "Calliope.Assemble.C113_consistent",
    "Calliope.Assemble.C113_condition",
    "Calliope.Assemble.C113_operand",
    "Calliope.Assemble.C113_late",
    "Calliope.Assemble.C113_late_condition",
    "Calliope.Assemble.C113_base",
    "Calliope.Assemble.C113_milp",
    "Calliope.Assemble.C113_operate",
    "Calliope.Assemble.C113_operate_milp",
    "Calliope.Assemble.C113_spores",
    "Calliope.Assemble.C113_inter_cluster"
   ],
   "note": ""
  },
  {
   "property": "C114",
   "status": "proved",
   "theorems": [
    "Calliope.Coarse.C114_outflow",
    "Calliope.Coarse.C114_inflow",
    "Calliope.Coarse.C114_least",
    "Calliope.Coarse.C114_source_max",
    "Calliope.Coarse.C114_demand",
    "Calliope.Coarse.C114_demand_least",
    "Calliope.Coarse.C114_source",
    "Calliope.Coarse.C114_source_least",
    "Calliope.Coarse.C114_supply",
    "Calliope.Coarse.C114_balance",
    "Calliope.Coarse.C114_storage",
    "Calliope.Coarse.C114_storage_max",
    "Calliope.Coarse.C114_depth",
    "Calliope.Coarse.C114_export",
    "Calliope.Coarse.C114_transmission",
    "Calliope.Coarse.C114_conversion",
    "Calliope.Coarse.C114_taking",
    "Calliope.Coarse.C114_giving",
    "Calliope.Coarse.C114_cost",
    "Calliope.Coarse.C114_undated",
    "Calliope.Coarse.C114_partly",
    "Calliope.Coarse.C114_efficiency",
    "Calliope.Coarse.C114_loss",
    "Calliope.Coarse.C114_ramping"
   ],
   "note": "Covered are the constraints of the base math on time steps, but balance_supply_with_storage and set_storage_initial. The labels of intervals are a parameter, and no interval is empty (pandas would make one for a gap in the data)."
  },
  {
   "property": "C115",
   "status": "proved",
   "theorems": [
    "Calliope.Write.C115_arithmetic",
    "Calliope.Write.C115_equation",
    "Calliope.Write.C115_sub",
    "Calliope.Write.C115_slice",
    "Calliope.Write.C115_where",
    "Calliope.Write.C115_different",
    "Calliope.Write.C115_constraint",
    "Calliope.Write.C115_expression",
    "Calliope.Write.C115_variable",
    "Calliope.Write.C115_check"
   ],
   "note": "Operands of binary operators are in parentheses in these texts; which operators bind more is C101. User-defined helper functions and lists of numbers as slices are left out."
  },
  {
   "property": "C116",
   "status": "proved",
   "theorems": [
    "Calliope.Merge.C116_names",
    "Calliope.Merge.C116_last",
    "Calliope.Merge.C116_accepted",
    "Calliope.Merge.C116_missing",
    "Calliope.Merge.C116_made",
    "Calliope.Merge.C116_refused",
    "Calliope.Merge.C116_added",
    "Calliope.Merge.C116_mode"
   ],
   "note": "Validation of strings is C109 and C115; the types of fields are not looked at, and piecewise constraints are left out."
  },
  {
   "property": "C117",
   "status": "proved",
   "theorems": [
    "Calliope.Linear.C117_mixed",
    "Calliope.Linear.C117_fails",
    "Calliope.Linear.C117_convex",
    "Calliope.Linear.C117_global",
    "Calliope.Linear.C117_base",
    "Calliope.Linear.C117_operate",
    "Calliope.Linear.C117_spores",
    "Calliope.Linear.C117_inter_cluster",
    "Calliope.Linear.C117_milp",
    "Calliope.Linear.C117_operate_milp",
    "Calliope.Linear.C117_product"
   ],
   "note": "Numbers are those of a field: rounding is not modelled. Dividing by zero gives no value. Piecewise constraints are left out (none is in the shipped math)."
  },
  {
   "property": "C118",
   "status": "proved",
   "theorems": [
    "Calliope.Units.C118_rescaled",
    "Calliope.Units.C118_fails",
    "Calliope.Units.C118_plans",
    "Calliope.Units.C118_best",
    "Calliope.Units.C118_base",
    "Calliope.Units.C118_operate",
    "Calliope.Units.C118_spores",
    "Calliope.Units.C118_milp",
    "Calliope.Units.C118_big_m",
    "Calliope.Units.C118_inter_cluster",
    "Calliope.Units.C118_penalty",
    "Calliope.Units.C118_spores_penalty"
   ],
   "note": "Numbers are those of a field: rounding is not modelled. Units of time and distance are kept: `flow_out_eff_per_distance ** distance` and `storage_loss` are not proportional to them. Findings: storage_inter_cluster.yaml:103 sets the stored amount to the fraction `storage_initial`; `bigM` is documented to have no unit, but is a cost per energy in the objective (C118_penalty) and an amount of energy in milp.yaml; `cost_area_use` is documented with the unit area."
  },
  {
   "property": "C119",
   "status": "proved",
   "theorems": [
    "Calliope.Loosen.C119_plans",
    "Calliope.Loosen.C119_best",
    "Calliope.Loosen.C119_fails",
    "Calliope.Loosen.C119_base",
    "Calliope.Loosen.C119_operate",
    "Calliope.Loosen.C119_spores",
    "Calliope.Loosen.C119_inter_cluster",
    "Calliope.Loosen.C119_milp"
   ],
   "note": "Numbers are those of an ordered field: rounding is not modelled. Of `**` it is assumed that a power of a number of at least one with an exponent that is not negative is at least one (for the annuity factor). Limits that become given, infinite or change sign are not covered, since conditions see that. Efficiencies and fixed amounts (`sink_use_equals`, `source_use_equals`) stay: they are in equalities. That of `flow_cap_max` in milp.yaml holds by `operating_units <= purchased_units`, which this analysis does not use."
  },
  {
   "property": "C120",
   "status": "proved",
   "theorems": [
    "Calliope.Rename.C120_plans",
    "Calliope.Rename.C120_constraints",
    "Calliope.Rename.C120_fails",
    "Calliope.Rename.C120_best",
    "Calliope.Rename.C120_base",
    "Calliope.Rename.C120_operate",
    "Calliope.Rename.C120_spores",
    "Calliope.Rename.C120_inter_cluster",
    "Calliope.Rename.C120_milp",
    "Calliope.Rename.C120_named"
   ],
   "note": "Addition is that of a field, so its order does not matter: rounding is not modelled, and a floating-point sum can change with the order. Inputs that are limits of variables are given for dimensions of the variable. Time steps, date steps and clusters keep their names. Which of several best plans a solver returns is not modelled."
  },
  {
   "property": "C121",
   "status": "proved",
   "theorems": [
    "Calliope.Typical.C121_plans",
    "Calliope.Typical.C121_constraints",
    "Calliope.Typical.C121_fails",
    "Calliope.Typical.C121_repeat",
    "Calliope.Typical.C121_no_worse",
    "Calliope.Typical.C121_base",
    "Calliope.Typical.C121_operate",
    "Calliope.Typical.C121_spores",
    "Calliope.Typical.C121_milp",
    "Calliope.Typical.C121_inter_cluster",
    "Calliope.Typical.C121_coupling",
    "Calliope.Typical.C121_unweighted"
   ],
   "note": "Stated for a model of all steps and a model of typical steps with the data named in the specification (Spec/Typical); that `cluster` makes such data of days that are alike is not part of this theorem, see C25 for the weights and lookups. Both have the same other dimensions. Defaults of costs are missing or zero. Inputs that are limits of variables are given for dimensions of the variable. The converse, that steps that are alike have decisions that are alike in some best plan, is not claimed. Rounding is not modelled."
  },
  {
   "property": "C122",
   "status": "proved",
   "theorems": [
    "Calliope.Average.C122_averages",
    "Calliope.Average.C122_exact",
    "Calliope.Average.C122_best",
    "Calliope.Average.C122_base",
    "Calliope.Average.C122_operate",
    "Calliope.Average.C122_spores",
    "Calliope.Average.C122_milp",
    "Calliope.Average.C122_integers"
   ],
   "note": "Stated for a model of all steps and a model of typical steps with the data named in the specifications (Spec/Typical, Spec/Average), as C121. Decisions range over an ordered field; rounding of solvers is not modelled. Not for math that has integer decisions per step (proved to fail) nor for storage and ramping limits."
  },
  {
   "property": "C123",
   "status": "proved",
   "theorems": [
    "Calliope.Logging.C123_once",
    "Calliope.Logging.C123_accepts",
    "Calliope.Logging.C123_solver",
    "Calliope.Logging.C123_warnings",
    "Calliope.Logging.C123_rejected",
    "Calliope.Logging.C123_cli",
    "Calliope.Logging.C123_times",
    "Calliope.Logging.C123_write",
    "Calliope.Logging.C123_zero"
   ],
   "note": "The parts of Python's `logging` that Calliope uses are modelled: levels, inheritance of levels and of handlers. Formats, `logging.disable`, filters and loggers that the program has changed itself are not. Case of letters and blanks are those of ASCII."
  },
  {
   "property": "C124",
   "status": "proved",
   "theorems": [
    "Calliope.BaseMath.C124_rule",
    "Calliope.BaseMath.C124_horizon",
    "Calliope.BaseMath.C124_cyclic",
    "Calliope.BaseMath.C124_carriers"
   ],
   "note": "As C61 and C62 for the other technologies that store. Powers are any function; losses do not change with time."
  },
  {
   "property": "C125",
   "status": "proved",
   "theorems": [
    "Calliope.Restrict.C125_builds",
    "Calliope.Restrict.C125_plan",
    "Calliope.Restrict.C125_iff",
    "Calliope.Restrict.C125_best",
    "Calliope.Restrict.C125_definitions",
    "Calliope.Restrict.C125_base",
    "Calliope.Restrict.C125_shadowed"
   ],
   "note": "Plans are those of C117: values of decisions with which the problem can be built, that satisfy all constraints and bounds and are integer where they must be. Extra math that replaces a component is not an addition; C116 says what it becomes. No piecewise constraints."
  },
  {
   "property": "C126",
   "status": "proved",
   "theorems": [
    "Calliope.BaseMath.C126_objective",
    "Calliope.BaseMath.C126_avoids",
    "Calliope.BaseMath.C126_unscored",
    "Calliope.BaseMath.C126_more",
    "Calliope.BaseMath.C126_alternative",
    "Calliope.Spores.C126_count"
   ],
   "note": "Significant is the threshold of C31: above score_threshold_factor times the largest capacity of tracked technologies with the same carrier. The solver is any function of the number of the call and of what the backend holds. The penalty is the one of C81."
  },
  {
   "property": "C127",
   "status": "partial",
   "theorems": [
    "Calliope.Copying.C127_attrdict",
    "Calliope.Copying.C127_copy_partial",
    "Calliope.Copying.C127_original_partial",
    "Calliope.Copying.C127_to_yaml_partial",
    "Calliope.Copying.C127_shared_inner_list",
    "Calliope.Copying.C127_attrdict_shares"
   ],
   "note": "False of the code for lists of lists: copy() gives the copy the inner lists of the original (C127_shared_inner_list, on a three-object dictionary); proved for all data in which no list holds a list. AttrDict(d) itself, unlike copy(), has the lists of d (C127_attrdict_shares), and puts AttrDict objects in place of dictionaries in them. Keys are texts without dots."
  },
  {
   "property": "C128",
   "status": "proved",
   "theorems": [
    "Calliope.Dates.C128_plans",
    "Calliope.Dates.C128_fails",
    "Calliope.Dates.C128_best",
    "Calliope.Dates.C128_base",
    "Calliope.Dates.C128_operate",
    "Calliope.Dates.C128_spores",
    "Calliope.Dates.C128_milp",
    "Calliope.Dates.C128_inter_cluster",
    "Calliope.Dates.C128_named"
   ],
   "note": "Inputs are given per time step, including timestep_resolution and timestep_weights; that these come from differences of dates is C23. Math that names a day depends on it (C128_named); math with group_datetime is not counted as free of dates."
  },
  {
   "property": "C129",
   "status": "partial",
   "theorems": [
    "Calliope.Versions.C129_running_partial",
    "Calliope.Versions.C129_configured_partial",
    "Calliope.Versions.C129_names",
    "Calliope.Versions.C129_new",
    "Calliope.Versions.C129_new_silent",
    "Calliope.Versions.C129_unnoticed"
   ],
   "note": "False of the code where the last part of the expected version is the beginning of the part at its place: texts are compared with startswith, so 0.7.12 passes for 0.7.1 without a warning (C129_unnoticed). The partial theorems say that nothing else goes unnoticed."
  }
 ]
}