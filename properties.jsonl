{"id": "C01", "title": "Setting a dotted key can be read back and disturbs nothing else", "statement": "After `d.set_key(key, value)` returns, with a value that is not a dictionary, `d.get_key(key)` returns that value, and every key that is neither a prefix nor an extension of `key` reads exactly as it did before.", "quantifier": "every nested dictionary, every dotted key of any depth, every scalar value", "why_tests_cant": "Nested dictionaries have unbounded depth and width; tests visit a handful of shapes.", "anchors": ["src/calliope/attrdict.py:AttrDict.set_key", "src/calliope/attrdict.py:AttrDict.get_key"]}
{"id": "C02", "title": "Overriding union: the other dictionary wins, everything unrelated survives", "statement": "After `d.union(other, allow_override=True)` returns, every leaf of `other` (other than None and the empty dictionary) reads in `d` as it does in `other`, and every key of `d` that is not prefix-related to a leaf of `other` reads as before.", "quantifier": "every pair of nested dictionaries on which the union returns", "why_tests_cant": "The claim ranges over all pairs of trees of any size and over every leaf in them.", "anchors": ["src/calliope/attrdict.py:AttrDict.union", "src/calliope/attrdict.py:AttrDict.keys_nested"]}
{"id": "C03", "title": "Non-overriding union never loses data silently", "statement": "`d.union(other)` with the default `allow_override=False` raises KeyError when some leaf key is defined in both; and when it returns, every leaf of `d` reads as it did before.", "quantifier": "every pair of nested dictionaries", "why_tests_cant": "Both directions quantify over all pairs of trees, including those where one side has a scalar at a path the other side has a dictionary.", "anchors": ["src/calliope/attrdict.py:AttrDict.union"]}
{"id": "C04", "title": "Flat and nested views of a dictionary are the same data", "statement": "The keys reported by `keys_nested` are pairwise distinct and none is a prefix of another, `as_dict_flat` maps each to the value `get_key` returns, and `AttrDict(d.as_dict_flat())` reads back as `d`.", "quantifier": "every nested dictionary without dots inside single keys", "why_tests_cant": "Holds by induction over unbounded trees.", "anchors": ["src/calliope/attrdict.py:AttrDict.keys_nested", "src/calliope/attrdict.py:AttrDict.as_dict_flat", "src/calliope/attrdict.py:AttrDict.init_from_dict"]}
{"id": "C05", "title": "Deleting a key removes it, prunes emptied parents and nothing else", "statement": "After `d.del_key(key)` returns, `key` is absent; any dictionary on the way down that became empty is absent too; all keys not prefix-related to `key` read as before. It raises exactly when the key was absent.", "quantifier": "every nested dictionary and every dotted key", "why_tests_cant": "Pruning cascades through arbitrarily many levels.", "anchors": ["src/calliope/attrdict.py:AttrDict.del_key"]}
{"id": "C06", "title": "_REPLACE_ substitutes a whole sub-dictionary", "statement": "After `d.union(other, allow_override=True, allow_replacement=True)` where `other` holds `{key: {_REPLACE_: v}}` and `key` exists in `d`, `d.get_key(key)` is exactly `v` (nothing from the previous contents of `key` survives) and unrelated keys are unchanged.", "quantifier": "every dictionary, key and replacement value", "why_tests_cant": "Ranges over all previous contents of the replaced subtree.", "anchors": ["src/calliope/attrdict.py:AttrDict.union"]}
{"id": "C07", "title": "Model definition priority", "statement": "For every leaf setting, the value in the final definition comes from the highest-priority source that defines it: init keyword arguments over override_dict over scenario overrides over the YAML definition over templates.", "quantifier": "every model definition, override dictionary, scenario and keyword set without _REPLACE_ and without a scalar/dictionary clash at one path", "why_tests_cant": "The number of source combinations is unbounded; tests sample a few keys.", "anchors": ["src/calliope/preprocess/model_definition.py:prepare_model_definition", "src/calliope/preprocess/model_definition.py:_load_scenario_overrides"]}
{"id": "C08", "title": "override_dict keeps its priority when it uses _REPLACE_", "statement": "When `override_dict` replaces a sub-dictionary through `_REPLACE_`, the final definition holds exactly the replacement, whatever the scenario's overrides set inside that sub-dictionary.", "quantifier": "every definition, override_dict with _REPLACE_ and scenario", "why_tests_cant": "Depends on object sharing between the override dictionary and the merged definition across three successive merges.", "anchors": ["src/calliope/preprocess/model_definition.py:_load_scenario_overrides", "src/calliope/attrdict.py:AttrDict.union"]}
{"id": "C09", "title": "Scenario expansion collects exactly the reachable overrides", "statement": "Loading a scenario applies exactly the override names reachable from it through nested scenario names, each once; it fails with ModelError exactly when some reachable name is neither a scenario nor an override; and it always returns for acyclic scenario definitions.", "quantifier": "every scenarios/overrides section", "why_tests_cant": "Scenario graphs are arbitrary and recursion depth is unbounded.", "anchors": ["src/calliope/preprocess/model_definition.py:_load_overrides_from_scenario"]}
{"id": "C10", "title": "Combining the overrides of a scenario does not depend on their order", "statement": "Two overrides applied together either both orders fail or both orders succeed with the same resulting settings (the order is that of a Python set of strings, i.e. arbitrary between processes).", "quantifier": "every list of override dictionaries and every permutation", "why_tests_cant": "Set iteration order varies with hash randomisation; a test run sees one order.", "anchors": ["src/calliope/preprocess/model_definition.py:_combine_overrides", "src/calliope/preprocess/model_definition.py:_load_overrides_from_scenario"]}
{"id": "C11", "title": "Template inheritance: the closest definition wins", "statement": "After template resolution a setting of a template has the value given by the first template in its inheritance chain (itself, its parent, its grandparent, ...) that defines it, and a section using a template keeps all of its own settings.", "quantifier": "every set of acyclic templates, chains of any length", "why_tests_cant": "Chains have unbounded length.", "anchors": ["src/calliope/preprocess/model_definition.py:TemplateSolver._resolve_template", "src/calliope/preprocess/model_definition.py:TemplateSolver._resolve_data"]}
{"id": "C12", "title": "Circular templates are always rejected and resolution always ends", "statement": "Template resolution terminates on every input; it raises ModelError for every template whose inheritance chain runs into a cycle and never for one whose chain ends.", "quantifier": "every templates section", "why_tests_cant": "Termination over all reference graphs is not testable.", "anchors": ["src/calliope/preprocess/model_definition.py:TemplateSolver._resolve_template"]}
{"id": "C13", "title": "No template call survives resolution", "statement": "After resolution no section of the model definition contains a `template` or `templates` key any more.", "quantifier": "every model definition with templates", "why_tests_cant": "Ranges over arbitrarily nested sections and template bodies.", "anchors": ["src/calliope/preprocess/model_definition.py:TemplateSolver._resolve_data"]}
{"id": "C14", "title": "Template results do not depend on the order templates are written in", "statement": "Permuting the entries of the `templates` section does not change any resolved section.", "quantifier": "every templates section and permutation of it", "why_tests_cant": "Depends on sharing between resolved templates; tests fix one order.", "anchors": ["src/calliope/preprocess/model_definition.py:TemplateSolver._resolve", "src/calliope/attrdict.py:AttrDict.union"]}
{"id": "C15", "title": "A YAML file overrides what it imports", "statement": "In a file with `import`, every leaf set by the importing file has its value in the result; without allow_override a leaf defined in both raises KeyError; leaves only in imports survive.", "quantifier": "every import list and file content", "why_tests_cant": "Unbounded import lists and trees.", "anchors": ["src/calliope/io.py:_resolve_yaml_imports", "src/calliope/io.py:read_rich_yaml"]}
{"id": "C16", "title": "Math files are applied in order, last one wins", "statement": "`build_math(priority, ...)` gives every leaf the value of the last math in the priority list (then the overwrite dictionary) that defines it, keeps every leaf defined by only one, and raises ModelError if a name in the list is unknown. The priority list is base, then the mode when not base, then extra_math in the user's order.", "quantifier": "every list of math files and contents", "why_tests_cant": "The list and dictionaries are user supplied and unbounded.", "anchors": ["src/calliope/preprocess/model_math.py:build_math", "src/calliope/preprocess/model_math.py:get_math_priority"]}
{"id": "C17", "title": "An accepted math definition has no ambiguous names", "statement": "If math validation succeeds then no name is active in two component groups, so `find` returns the one definition of any active component.", "quantifier": "every math definition", "why_tests_cant": "Ranges over all sets of names across nine groups.", "anchors": ["src/calliope/schemas/math_schema.py:CalliopeBuildMath.unique_component_names", "src/calliope/schemas/math_schema.py:CalliopeBuildMath.find"]}
{"id": "C18", "title": "Inactive math can never reach the optimisation problem", "statement": "A component with active: false is not added by the backend, no active expression may reference it, and in a where string it reads as an undefined input/result (False) instead of failing.", "quantifier": "every math definition and set of active flags", "why_tests_cant": "Ranges over all combinations of active flags.", "anchors": ["src/calliope/schemas/math_schema.py:CalliopeBuildMath.parsing_components", "src/calliope/backend/backend_model.py:BackendModelGenerator.add_optimisation_components"]}
{"id": "C19", "title": "Configuration update changes what is named and nothing else", "statement": "`config.update(d)` returns a configuration in which each dotted key of `d` has the new value and each other setting is unchanged; the original is untouched; applying the same update twice equals applying it once; disjoint updates commute.", "quantifier": "every configuration tree and update dictionary", "why_tests_cant": "Configuration trees and updates are arbitrary.", "anchors": ["src/calliope/schemas/general.py:CalliopeBaseModel.update", "src/calliope/schemas/general.py:CalliopeDictModel.update"]}
{"id": "C20", "title": "Unique-list validation accepts exactly the lists without repeats", "statement": "A unique list is accepted if and only if no two entries are equal.", "quantifier": "every list of strings/numbers/lists", "why_tests_cant": "Ranges over all lists, including mixed ones.", "anchors": ["src/calliope/schemas/general.py:_validate_unique_list"]}
{"id": "C21", "title": "Model attributes survive saving to NetCDF and loading", "statement": "Attributes written by to_netcdf and read by read_netcdf come back equal: None, booleans, dictionaries, sets, single-element lists and plain values, on the dataset and on every variable.", "quantifier": "every attribute dictionary of supported values", "why_tests_cant": "Ranges over all combinations of attribute types and names.", "anchors": ["src/calliope/io.py:_serialise", "src/calliope/io.py:_deserialise", "src/calliope/io.py:save_netcdf", "src/calliope/io.py:read_netcdf"]}
{"id": "C22", "title": "Saving does not change the model in memory", "statement": "After to_netcdf returns or raises, the attributes of the model held in memory are what they were before the call.", "quantifier": "every model, every failure point during saving", "why_tests_cant": "Failures can occur at any point of the write.", "anchors": ["src/calliope/io.py:save_netcdf"]}
{"id": "C23", "title": "Timestep resolution and weights reproduce the time axis", "statement": "Each timestep's resolution is the distance to the next one (the last repeats its predecessor's, a single timestep gets one hour); the resolutions before the last add up to the distance from first to last; weights are 1.", "quantifier": "every increasing time axis of any length", "why_tests_cant": "Unbounded axes with irregular spacing.", "anchors": ["src/calliope/preprocess/time.py:add_inferred_time_params"]}
{"id": "C24", "title": "Resampling by sum conserves totals", "statement": "Resampling timeseries data with method sum keeps the overall total of the data, puts every original timestep in exactly one new one, and a new timestep is empty only if all of its members are.", "quantifier": "every timeseries with gaps, every resampling frequency", "why_tests_cant": "Ranges over all series and frequencies.", "anchors": ["src/calliope/preprocess/time.py:resample"]}
{"id": "C25", "title": "Clustering accounts for every day exactly once", "statement": "After clustering, weights of the representative days add up to the number of original days, each original day maps to exactly one representative that is itself kept and maps to itself, and cluster first/last timesteps are those of the representative days.", "quantifier": "every assignment of days to representative days", "why_tests_cant": "Ranges over all assignments.", "anchors": ["src/calliope/preprocess/time.py:cluster", "src/calliope/preprocess/time.py:_lookup_clusters"]}
{"id": "C26", "title": "Subsetting a dimension keeps exactly the requested range", "statement": "After time subsetting the kept timesteps are exactly those between the given start and end (inclusive), in order; a subset outside the data raises an error.", "quantifier": "every time axis and subset", "why_tests_cant": "Boundary inclusion must hold for every axis.", "anchors": ["src/calliope/preprocess/model_data.py:ModelDataCleaner._subset_dims", "src/calliope/preprocess/time.py:check_time_subset"]}
{"id": "C27", "title": "Operate mode: windows cover the horizon exactly once", "statement": "In operate mode each timestep of the model appears in the results of exactly one window, and windows are solved in chronological order.", "quantifier": "every time axis, window and horizon length", "why_tests_cant": "Ranges over all window/horizon/axis length combinations.", "anchors": ["src/calliope/model.py:Model._prepare_operate_mode_inputs", "src/calliope/model.py:Model._solve_operate", "src/calliope/schemas/config_schema.py:BuildOperate"]}
{"id": "C28", "title": "Operate mode: storage is handed over between windows", "statement": "The initial storage of each window after the first equals the stored level at the end of the previous window's non-overlapping part relative to capacity, so the concatenated trajectory is continuous.", "quantifier": "every sequence of windows and window results", "why_tests_cant": "Arbitrary number of windows and solver outcomes.", "anchors": ["src/calliope/model.py:Model._recalculate_storage_initial", "src/calliope/model.py:Model._solve_operate"]}
{"id": "C29", "title": "Build/solve life cycle is guarded", "statement": "No sequence of build and solve calls lets a model be solved before it is built, or lets a built (solved) model be rebuilt (re-solved) without force=True; an accepted forced rebuild drops the old backend, a non-optimal solve yields no results but is recorded as solved.", "quantifier": "every sequence of API calls, including failing ones", "why_tests_cant": "Ranges over call histories of any length.", "anchors": ["src/calliope/model.py:Model.build", "src/calliope/model.py:Model.solve"]}
{"id": "C30", "title": "Zeroing threshold only removes noise", "statement": "Applying zero_threshold t sets every result with absolute value below t to zero and leaves every other result (and NaN) unchanged; it is idempotent and never flips a sign.", "quantifier": "every results array and threshold", "why_tests_cant": "Ranges over all reals and array sizes.", "anchors": ["src/calliope/model.py:Model._apply_zero_threshold"]}
{"id": "C31", "title": "SPORES mode explores the requested number of alternatives", "statement": "A SPORES run yields the baseline and then one result per requested spore in order, stopping at the first non-optimal one; a technology's score never decreases, and only increases when it was deployed (integer/relative methods) or evolves per the chosen method.", "quantifier": "every number of spores, scoring algorithm and sequence of solver outcomes", "why_tests_cant": "Ranges over solver outcome histories.", "anchors": ["src/calliope/model.py:Model._solve_spores", "src/calliope/model.py:Model._spores_update_model"]}
{"id": "C32", "title": "A backend component name identifies one object", "statement": "In every reachable backend state each component name is held by one component group; adding a component whose name is present raises BackendError and changes nothing.", "quantifier": "every sequence of add and delete calls", "why_tests_cant": "Ranges over operation histories.", "anchors": ["src/calliope/backend/backend_model.py:BackendModel._raise_error_on_preexistence", "src/calliope/backend/backend_model.py:BackendModelGenerator._add_to_dataset"]}
{"id": "C33", "title": "Components are built in a deterministic, dependency-friendly order", "statement": "The optimisation components are added group by group (variables, global expressions, constraints, piecewise constraints, objectives) and inside a group by increasing `order`, ties in definition order; every defined component is added exactly once.", "quantifier": "every math definition", "why_tests_cant": "Ranges over all definitions; stability must hold for all ties.", "anchors": ["src/calliope/backend/backend_model.py:BackendModelGenerator.add_optimisation_components", "src/calliope/backend/backend_model.py:BackendModelGenerator._sorted_by_order"]}
{"id": "C34", "title": "At most one equation applies to any index item", "statement": "When a component's equations are evaluated, either every index item receives the expression of the single equation whose conditions hold there (and nothing where none holds), or BackendError is raised because two equations apply to a common item. The result does not depend on equation order.", "quantifier": "every list of equations and where masks over any index", "why_tests_cant": "Ranges over all masks.", "anchors": ["src/calliope/backend/backend_model.py:BackendModelGenerator._eval_equations"]}
{"id": "C35", "title": "Updating an input is equivalent to rebuilding with it", "statement": "After update_input, the backend holds the same component values as a backend built from scratch with the new input; entries given as NaN keep their previous value.", "quantifier": "every component dependency graph and every update", "why_tests_cant": "Ranges over all dependency graphs and data.", "anchors": ["src/calliope/backend/backend_model.py:BackendModel._update_input", "src/calliope/backend/backend_model.py:BackendModel._find_all_references", "src/calliope/backend/backend_model.py:BackendModel._rebuild_references"]}
{"id": "C36", "title": "Reference tracking is transitive", "statement": "The set of components rebuilt after an input change is exactly the set of components that depend on it directly or through any chain of other components.", "quantifier": "every reference graph", "why_tests_cant": "Chains are unbounded; cycles possible.", "anchors": ["src/calliope/backend/backend_model.py:BackendModel._find_all_references"]}
{"id": "C37", "title": "Exactly one objective is active", "statement": "After any sequence of adding objectives and set_objective calls that succeed, at most one objective is active in the solver object and it is the one named by `objective`.", "quantifier": "every sequence of add_objective/set_objective calls, including failing ones", "why_tests_cant": "Ranges over operation histories.", "anchors": ["src/calliope/backend/pyomo_backend_model.py:PyomoBackendModel.set_objective", "src/calliope/backend/pyomo_backend_model.py:PyomoBackendModel._add_objective"]}
{"id": "C38", "title": "Variable bound updates respect parameters and leave NaN entries alone", "statement": "update_variable_bounds changes a bound only for items with a non-NaN new value, refuses to change a bound set by a parameter, and changes neither bound when it refuses.", "quantifier": "every variable, every min/max update", "why_tests_cant": "Ranges over all arrays and both bounds together.", "anchors": ["src/calliope/backend/pyomo_backend_model.py:PyomoBackendModel.update_variable_bounds"]}
{"id": "C39", "title": "Fixing and unfixing variables is an inverse pair", "statement": "fix_variable then unfix_variable over the same selection returns every variable to free; fix leaves items outside the selection untouched and fails for unsolved variables.", "quantifier": "every variable array and selection", "why_tests_cant": "Ranges over all selections.", "anchors": ["src/calliope/backend/pyomo_backend_model.py:PyomoBackendModel.fix_variable", "src/calliope/backend/pyomo_backend_model.py:PyomoBackendModel.unfix_variable"]}
{"id": "C40", "title": "Where strings evaluate item by item as Boolean formulas", "statement": "The array of a where string holds, at each index item, the Boolean combination of its operands at that item; missing data counts as False; broadcasting an operand over dimensions it lacks does not change its value.", "quantifier": "every where expression of any nesting and every data array", "why_tests_cant": "Ranges over all formulas and arrays.", "anchors": ["src/calliope/backend/where_parser.py:EvalAndOr", "src/calliope/backend/where_parser.py:EvalNot", "src/calliope/backend/where_parser.py:InputArrayParser"]}
{"id": "C41", "title": "AND binds tighter than OR in where strings", "statement": "A where string mixing AND and OR without parentheses evaluates with the conventional precedence, NOT over AND over OR.", "quantifier": "every unparenthesised chain of operands", "why_tests_cant": "Chains of any length.", "anchors": ["src/calliope/backend/where_parser.py:where_parser"]}
{"id": "C42", "title": "Arithmetic strings evaluate with conventional precedence", "statement": "A math expression string evaluates with sign, power, product, sum precedence as in ordinary algebra/Python: -a ** b is -(a ** b) and powers group to the right.", "quantifier": "every expression string", "why_tests_cant": "Strings of any length and nesting.", "anchors": ["src/calliope/backend/expression_parser.py:arithmetic_parser"]}
{"id": "C43", "title": "Parsing inverts printing", "statement": "Writing any where formula/arithmetic expression with full parentheses and parsing it back yields the same formula, and the parser consumes the whole string.", "quantifier": "every formula", "why_tests_cant": "Formulas of unbounded size.", "anchors": ["src/calliope/backend/where_parser.py:where_parser", "src/calliope/backend/expression_parser.py:arithmetic_parser"]}
{"id": "C44", "title": "Sub-expression and slice expansion is the full product", "statement": "Equations, sub-expressions and slices expand to exactly one equation per combination, whose condition is the conjunction of the parts' conditions; if the cases of each sub-expression are mutually exclusive so are the expanded equations, and if they are exhaustive no item is lost.", "quantifier": "every component definition with any number of equations, sub-expressions and cases", "why_tests_cant": "Combinatorial expansion of unbounded size.", "anchors": ["src/calliope/backend/parsing.py:ParsedBackendComponent.extend_equation_list_with_expression_group", "src/calliope/backend/parsing.py:ParsedBackendEquation.add_expression_group_combination"]}
{"id": "C45", "title": "A component exists exactly where its foreach, definition matrix and where say", "statement": "A component item is built only at items for which the technology is defined at that node/carrier and all where strings hold; disallowed items stay empty; unknown dimensions give an empty component.", "quantifier": "every foreach list, definition matrix and where mask", "why_tests_cant": "Ranges over all masks and dimension sets.", "anchors": ["src/calliope/backend/parsing.py:ParsedBackendComponent.combine_definition_matrix_and_foreach", "src/calliope/backend/parsing.py:ParsedBackendComponent.generate_top_level_where_array", "src/calliope/backend/parsing.py:ParsedBackendEquation.drop_dims_not_in_foreach"]}
{"id": "C46", "title": "sum helper adds present data only", "statement": "sum(x, over=dims) is the sum of the non-missing values along dims, missing only if all are missing, independent of order of dims; dims absent from x are ignored.", "quantifier": "every array and dimension list", "why_tests_cant": "Ranges over all arrays.", "anchors": ["src/calliope/backend/helper_functions.py:Sum.as_array"]}
{"id": "C47", "title": "roll is a cyclic shift", "statement": "roll(x, dim=n) at position i holds x at position i-n modulo the dimension length, so rolling by n and then -n is the identity and totals are preserved.", "quantifier": "every array and every integer shift", "why_tests_cant": "Ranges over all lengths and shifts.", "anchors": ["src/calliope/backend/helper_functions.py:Roll.as_array"]}
{"id": "C48", "title": "sum_next_n adds the documented window", "statement": "sum_next_n(x, dim, N) at position i is the sum over the positions i to i+N as printed in the math documentation.", "quantifier": "every array and N", "why_tests_cant": "Boundary positions for every length.", "anchors": ["src/calliope/backend/helper_functions.py:SumNextN.as_array", "src/calliope/backend/helper_functions.py:SumNextN.as_math_string"]}
{"id": "C49", "title": "group_sum conserves totals", "statement": "group_sum adds each non-missing item with a group label to exactly one group; totals over groups equal the total over labelled items.", "quantifier": "every array and grouping", "why_tests_cant": "Ranges over all groupings.", "anchors": ["src/calliope/backend/helper_functions.py:GroupSum.as_array"]}
{"id": "C50", "title": "select_from_lookup_arrays picks the looked-up item", "statement": "At each item, the result is the component's value at the item named by the lookup arrays, and missing where a lookup is missing; a lookup value outside the dimension raises.", "quantifier": "every component and lookup array", "why_tests_cant": "Ranges over all arrays.", "anchors": ["src/calliope/backend/helper_functions.py:SelectFromLookupArrays.as_array"]}
{"id": "C51", "title": "Documented math states what is built", "statement": "The LaTeX where and expression strings denote the same condition/expression as the arrays built from the same math string.", "quantifier": "every math string", "why_tests_cant": "Ranges over all strings and values.", "anchors": ["src/calliope/backend/where_parser.py:EvalAndOr.as_math_string", "src/calliope/backend/expression_parser.py:EvalOperatorOperand.as_math_string"]}
{"id": "C52", "title": "Deactivated items vanish completely", "statement": "A technology, node or node-technology with active: false contributes nothing to the model inputs; all other items are as if it had never been written.", "quantifier": "every definition and set of active flags", "why_tests_cant": "Ranges over all subsets of deactivated items.", "anchors": ["src/calliope/preprocess/model_data.py:ModelDataBuilder._deactivate_item", "src/calliope/preprocess/model_data.py:ModelDataBuilder._inherit_defs"]}
{"id": "C53", "title": "Node-level technology settings override technology-level ones", "statement": "In inputs that are built, each setting of a technology at a node is the one written at the node when a value is given there, else the one written for the technology, else the one of the data tables; settings at nodes that cannot be combined with those of the technology are refused. Active nodes, technologies with settings, and every label a setting uses are labels of the inputs.", "quantifier": "every technology and node definition", "why_tests_cant": "Ranges over all dictionaries.", "anchors": ["src/calliope/preprocess/model_data.py:ModelDataBuilder._inherit_defs"]}
{"id": "C54", "title": "Transmission links connect their two ends", "statement": "Each active link between two different active nodes appears at exactly these nodes, consuming and producing carrier at both ends unless one-way, in which case it can only consume at `link_from` and only produce at `link_to`; a link that is inactive or lacks a node appears nowhere.", "quantifier": "every set of links", "why_tests_cant": "Ranges over all link definitions.", "anchors": ["src/calliope/preprocess/model_data.py:ModelDataBuilder._links_to_node_format", "src/calliope/preprocess/model_data.py:ModelDataBuilder._update_one_way_links"]}
{"id": "C55", "title": "Later data wins and gaps are filled from earlier data", "statement": "When data is added to the model inputs, each item has the new value when given and otherwise the existing one; items of neither are missing. No label is lost, and the labels of new values are added. The settings of nodes are merged with those of their technologies exactly if they nowhere differ.", "quantifier": "every sequence of additions", "why_tests_cant": "Ranges over histories.", "anchors": ["src/calliope/preprocess/model_data.py:ModelDataBuilder._add_to_dataset"]}
{"id": "C56", "title": "Cleaning removes exactly the undefined members", "statement": "After cleaning, a technology, node or carrier remains exactly if it occurs in some defined combination, every defined combination remains with its values, values that belong to no defined combination are removed, and cleaning again changes nothing.", "quantifier": "every definition matrix", "why_tests_cant": "Ranges over all matrices.", "anchors": ["src/calliope/preprocess/model_data.py:ModelDataCleaner._drop_undefined"]}
{"id": "C57", "title": "Removing nodes leaves no link hanging", "statement": "After subsetting nodes, no remaining transmission technology is defined at just one node, and links whose both ends remain are kept.", "quantifier": "every network and node subset", "why_tests_cant": "Ranges over all networks and subsets.", "anchors": ["src/calliope/preprocess/model_data.py:ModelDataCleaner._subset_dims"]}
{"id": "C58", "title": "Every technology has a colour and user colours are kept", "statement": "After colours are filled in every technology has one, those given by the user are unchanged, and each missing one gets the palette entry of the position of its technology, the palette being repeated.", "quantifier": "every number of technologies and pattern of missing colours", "why_tests_cant": "Ranges over all lengths.", "anchors": ["src/calliope/preprocess/model_data.py:ModelDataCleaner.add_colors"]}
{"id": "C59", "title": "Generated run scripts launch every scenario exactly once", "statement": "The generated script has one command per scenario, job index i (1..n) runs the i-th scenario and no other, and output files are pairwise distinct, sorted like the scenarios. Overrides and further arguments given are part of every command. The Windows script runs the commands in order, each after a line with its number.", "quantifier": "every list of scenarios", "why_tests_cant": "Ranges over all list lengths (padding width changes with length).", "anchors": ["src/calliope/util/generate_runs.py:generate_runs", "src/calliope/util/generate_runs.py:generate_bash_script", "src/calliope/util/generate_runs.py:generate_bsub_script", "src/calliope/util/generate_runs.py:generate_sbatch_script"]}
{"id": "C60", "title": "Generated scenarios are the full product of override groups", "statement": "generate_scenarios writes one scenario per combination of one override from each group, with distinct names in a fixed order.", "quantifier": "every list of override groups", "why_tests_cant": "Ranges over all products.", "anchors": ["src/calliope/cli.py:generate_scenarios"]}
{"id": "C61", "title": "The storage balance has exactly one previous-step rule per timestep", "statement": "For each timestep, exactly one of the previous-step cases of the base storage balance applies: initial storage, previous timestep, or last timestep of the cluster.", "quantifier": "every combination of first timestep, cyclic storage and cluster-first flags", "why_tests_cant": "The where strings must partition all items.", "anchors": ["src/calliope/math/base.yaml:balance_storage", "src/calliope/math/base.yaml:storage_previous_step"]}
{"id": "C62", "title": "Storage energy is conserved over the horizon", "statement": "In any solution of the base storage balance with no storage loss, final stored energy equals initial stored energy plus all charging minus all discharging; with cyclic storage charging equals discharging.", "quantifier": "every horizon length and every feasible flow trajectory", "why_tests_cant": "Ranges over all feasible solutions.", "anchors": ["src/calliope/math/base.yaml:balance_storage"]}
{"id": "C63", "title": "Energy balance over the whole system", "statement": "In any solution of the base math, summed over nodes, supply plus unmet demand equals demand plus exports, unused supply and transmission/conversion losses.", "quantifier": "every network and feasible solution", "why_tests_cant": "Ranges over all networks and solutions.", "anchors": ["src/calliope/math/base.yaml:system_balance", "src/calliope/math/base.yaml:balance_transmission"]}
{"id": "C64", "title": "Annualised investment cost recovers the investment", "statement": "The annuity used for investment costs recovers the investment over the lifetime at the given interest rate, tends to investment/lifetime at zero interest, and each cost item with a lifetime falls into exactly one depreciation case.", "quantifier": "every lifetime, interest rate and cost", "why_tests_cant": "Ranges over all real parameters.", "anchors": ["src/calliope/math/base.yaml:cost_investment_annualised"]}
{"id": "C65", "title": "Total generation weights all of its terms", "statement": "total_generation is the weighted sum over timesteps of all outflow, so that it is invariant under replacing a timestep of weight w by w copies of weight 1.", "quantifier": "every flow trajectory and weights", "why_tests_cant": "Ranges over all trajectories.", "anchors": ["src/calliope/math/base.yaml:total_generation"]}
{"id": "C66", "title": "Operate mode solves every window with its own input data", "statement": "In operate mode, each window is solved with the timeseries input values of exactly the timesteps of that window's horizon, whatever the values in other windows, including gaps (NaN) and lookups.", "quantifier": "every axis, window and horizon, number of windows and timeseries inputs", "why_tests_cant": "Ranges over all inputs and windows; an element keeping an earlier window's value only shows for particular gap patterns.", "anchors": ["src/calliope/model.py:Model._solve_operate", "src/calliope/backend/backend_model.py:BackendModel._update_input"]}
{"id": "C67", "title": "A SPORES run does not depend on earlier runs", "statement": "Solving a model in SPORES mode again, without restarting from earlier results, behaves as on a newly built model with the same inputs: scores start at zero and the cost limit is derived from this run's baseline.", "quantifier": "every model state left by earlier solves and input updates", "why_tests_cant": "Ranges over histories of solves and updates.", "anchors": ["src/calliope/model.py:Model._solve_spores", "src/calliope/math/spores.yaml:total_system_cost_max"]}
{"id": "C68", "title": "Expressions mean what they say, item by item", "statement": "The value of an expression at an item follows from the meaning of its operators, slices, sub-expressions and helper functions at that item and the items they name; it does not depend on which other items satisfy the where condition of the equation.", "quantifier": "every expression, nesting, condition, set of dimensions and data", "why_tests_cant": "Ranges over all expressions and all conditions; a masked operand inside a sum only shows when the condition leaves out summed items.", "anchors": ["src/calliope/backend/expression_parser.py:EvalOperatorOperand", "src/calliope/backend/expression_parser.py:EvalFunction", "src/calliope/backend/helper_functions.py"]}
{"id": "C69", "title": "Every reference in an equation is resolved", "statement": "Every reference $name to a sub-expression or slice that an equation uses and the component defines is replaced by its definition, wherever it stands in the equation; evaluation then finds it.", "quantifier": "every component definition and every place in an expression", "why_tests_cant": "Ranges over all expression shapes.", "anchors": ["src/calliope/backend/parsing.py:ParsedBackendComponent._find_items_in_expression", "src/calliope/backend/parsing.py:ParsedBackendComponent.parse_equations"]}
{"id": "C70", "title": "No expression or constraint is built from missing values", "statement": "If a global expression, objective or constraint is built, it has no dimension outside foreach and every value it uses at an item for which the condition holds is present; otherwise building raises.", "quantifier": "every expression, comparison, condition and data", "why_tests_cant": "Ranges over all data gaps and conditions.", "anchors": ["src/calliope/backend/parsing.py:ParsedBackendEquation.raise_error_on_where_expr_mismatch", "src/calliope/backend/expression_parser.py:EvalComparisonOp"]}
{"id": "C71", "title": "A component is built exactly where its definition says, with the value it says", "statement": "Adding a constraint or global expression builds an item exactly where the foreach sets, the where condition of the component and the conditions of exactly one of its equations (with those of the chosen sub-expressions and slices) hold, refuses two equations for one item, and what is built there is the meaning of that equation's expression at that item.", "quantifier": "every component definition, condition, expression, set of dimensions and data", "why_tests_cant": "Ranges over all definitions and data.", "anchors": ["src/calliope/backend/backend_model.py:BackendModelGenerator._eval_equations", "src/calliope/backend/backend_model.py:BackendModelGenerator.add_constraint", "src/calliope/backend/parsing.py:ParsedBackendComponent"]}
{"id": "C72", "title": "Links get the distance between their nodes", "statement": "When coordinates of nodes are given, every transmission technology has a distance: the one given by the user, or else the distance between the two nodes it connects; other technologies are unaffected, and links that do not connect exactly two nodes are refused.", "quantifier": "every network, pattern of given distances and distance function", "why_tests_cant": "Ranges over all networks and patterns.", "anchors": ["src/calliope/preprocess/model_data.py:ModelDataCleaner.add_link_distances"]}
{"id": "C73", "title": "A data table means what its cells say", "statement": "A table that loads gives an input a value exactly where one of its cells says so, after selecting, dropping, renaming and adding dimensions; a table in which two cells would give the same value is refused instead of one silently winning; which dimensions are on rows and which on columns makes no difference; protected inputs never load; and exactly the well-formed tables load.", "quantifier": "every table definition and every file", "why_tests_cant": "Ranges over all shapes of tables and combinations of select, drop, rename_dims and add_dims.", "anchors": ["src/calliope/preprocess/data_tables.py:DataTable._df_to_ds", "src/calliope/preprocess/data_tables.py:DataTable._rename_axes", "src/calliope/preprocess/data_tables.py:DataTable._check_processed_tdf", "src/calliope/preprocess/data_tables.py:DataTable._check_for_protected_params"]}
{"id": "C74", "title": "Technologies, nodes and lookups follow from the data tables", "statement": "A data table puts a technology at a node exactly if it has a value over nodes and technologies for both, and raises if that technology is a link; a lookup given in a table gives a technology exactly the labels for which the table has a value.", "quantifier": "every table definition and every file", "why_tests_cant": "Ranges over all tables.", "anchors": ["src/calliope/preprocess/data_tables.py:DataTable.node_dict", "src/calliope/preprocess/data_tables.py:DataTable.lookup_dict_from_param"]}
{"id": "C75", "title": "YAML and data tables together define the model", "statement": "The technologies of the model are those of the YAML definition and those named in data tables; a technology is at a node if YAML lists it there or a table has a value for it there; settings written in YAML are kept and win over tables; among tables, the last value of an input wins, while giving base_tech, link_from, link_to or a lookup of one technology in two tables is refused; and data in tables for a technology that YAML deactivates is left out, as data in YAML is.", "quantifier": "every YAML definition and every sequence of loaded tables", "why_tests_cant": "Ranges over all definitions and sequences of tables.", "anchors": ["src/calliope/preprocess/model_data.py:ModelDataBuilder.init_from_data_tables", "src/calliope/preprocess/data_tables.py:DataTable.tech_dict", "src/calliope/preprocess/data_tables.py:DataTable.node_dict"]}
{"id": "C76", "title": "Storage between clusters stays within its capacity on every day", "statement": "In a model of representative days with the inter-cluster storage math, in any solution the energy really stored at the end of any time step of any date (what is left of what the date started with, plus what its representative day stored) is never negative and never above the storage capacity.", "quantifier": "every network, clustering, set of dates, loss rate and solution of the constraints", "why_tests_cant": "Ranges over all solutions of all models.", "anchors": ["src/calliope/math/storage_inter_cluster.yaml:storage_intra_max", "src/calliope/math/storage_inter_cluster.yaml:storage_intra_min", "src/calliope/math/storage_inter_cluster.yaml:storage_inter_max", "src/calliope/math/storage_inter_cluster.yaml:storage_inter_min"]}
{"id": "C77", "title": "Storage between clusters conserves energy", "statement": "In a model of representative days with the inter-cluster storage math, what is really stored in one time step of a date is what is left of what was stored the step before (from one date to the next too) plus the net charge; the first date starts with the initial level; and over the whole period cyclic storage without losses charges as much as it discharges.", "quantifier": "every network, clustering, set of dates, loss rate and solution of the constraints", "why_tests_cant": "Ranges over all solutions of all models.", "anchors": ["src/calliope/math/storage_inter_cluster.yaml:balance_storage", "src/calliope/math/storage_inter_cluster.yaml:balance_storage_inter", "src/calliope/math/storage_inter_cluster.yaml:set_storage_initial"]}
{"id": "C78", "title": "Flows and storage stay within capacities", "statement": "In any solution, for every technology, node, carrier and time step, outflow and inflow are not negative and at most what the flow capacity gives in that time, and outflow at least the given share of it; the use of a source is at most what its capacity gives; what is stored is at most the storage capacity and at least the given share of it; no more is exported than flows out; and with integer dispatch nothing flows when no unit runs.", "quantifier": "every network, capacity and solution", "why_tests_cant": "Ranges over all solutions of all models.", "anchors": ["src/calliope/math/base.yaml:flow_out_max", "src/calliope/math/base.yaml:flow_in_max", "src/calliope/math/base.yaml:source_max", "src/calliope/math/base.yaml:storage_max", "src/calliope/math/base.yaml:storage_discharge_depth_limit", "src/calliope/math/base.yaml:export_balance", "src/calliope/math/milp.yaml:flow_out_max_milp", "src/calliope/math/milp.yaml:flow_in_max_milp", "src/calliope/math/milp.yaml:unit_commitment_milp"]}
{"id": "C79", "title": "Decision variables exist exactly for their items and keep to their bounds", "statement": "A decision variable of the math is built exactly for the labels that are in the model and meet its condition, with the bounds that the input data give at these labels; conditions on the variable see exactly these items; in any solution the values are within these bounds (whole numbers for integer variables).", "quantifier": "every model, variable of the math, label and solution", "why_tests_cant": "Ranges over all models and solutions.", "anchors": ["src/calliope/math/base.yaml:variables", "src/calliope/math/milp.yaml:variables", "src/calliope/math/storage_inter_cluster.yaml:variables", "src/calliope/backend/backend_model.py:add_variable", "src/calliope/backend/pyomo_backend_model.py:add_variable"]}
{"id": "C80", "title": "Asynchronous flow", "statement": "In any solution, a technology for which asynchronous flow is asked never takes in and gives out carriers in the same time step, for any carriers.", "quantifier": "every network, technology with forced asynchronous flow, time step and solution", "why_tests_cant": "Ranges over all solutions of all models.", "anchors": ["src/calliope/math/milp.yaml:async_flow_in_milp", "src/calliope/math/milp.yaml:async_flow_out_milp", "src/calliope/math/milp.yaml:async_flow_switch"]}
{"id": "C81", "title": "The cost of a model is what its prices say", "statement": "In any solution the investment cost of a technology at a node is the sum over its capacities of price times capacity (and of price times distance times capacity, half at each end, for links); the cost is the annualised investment, plus the fixed cost per year for the years modelled, plus price times flows; and the objective is the weighted sum of all costs plus the penalty for unmet demand. Connecting two nodes by a link costs its price once.", "quantifier": "every network, price, capacity, flow and solution", "why_tests_cant": "Ranges over all solutions of all models.", "anchors": ["src/calliope/math/base.yaml:cost_investment", "src/calliope/math/base.yaml:cost_investment_annualised", "src/calliope/math/base.yaml:cost_operation_fixed", "src/calliope/math/base.yaml:cost_operation_variable", "src/calliope/math/base.yaml:cost", "src/calliope/math/base.yaml:min_cost_optimisation"]}
{"id": "C82", "title": "SPORES runs stay within the allowed extra cost", "statement": "In any solution of a SPORES run, the total cost (as the cost objective counts it) is at most the baseline cost times one plus the slack; nothing else is ruled out.", "quantifier": "every network, baseline, slack and solution", "why_tests_cant": "Ranges over all solutions of all models.", "anchors": ["src/calliope/math/spores.yaml:total_system_cost_max"]}
{"id": "C83", "title": "Integer units limit capacities", "statement": "In any solution, a technology that is bought in units has no capacity without a unit, at most the largest and at least the smallest capacity per unit bought, for flows, storage, area and sources; with units of a given size, storage is the number bought times the size; the number bought at all nodes together is between the smallest and the largest number given; and a unit that does not run has no capacity available.", "quantifier": "every network, technology bought in units, node, number of units and solution", "why_tests_cant": "Ranges over all solutions of all models.", "anchors": ["src/calliope/math/milp.yaml:flow_capacity_max_purchase_milp", "src/calliope/math/milp.yaml:storage_capacity_max_purchase_milp", "src/calliope/math/milp.yaml:flow_capacity_minimum", "src/calliope/math/milp.yaml:unit_capacity_max_systemwide_milp", "src/calliope/math/milp.yaml:unit_capacity_min_systemwide_milp", "src/calliope/math/milp.yaml:flow_capacity_systemwide_min_milp", "src/calliope/math/milp.yaml:available_flow_cap_binary", "src/calliope/math/milp.yaml:flow_out_min_milp"]}
{"id": "C84", "title": "Demand is met and sources are not overused", "statement": "In any solution, a demand technology takes in, after losses, exactly the demand given for a time step, or, where only limits are given, an amount between them; a supply technology takes from its source exactly the use given, or an amount between the limits given (each scaled by area or capacity where so asked), and what it gives out of all its carriers together, losses included, is what it takes from the source times the efficiency.", "quantifier": "every network, demand and supply technology, carrier, time step, unit of demand and sources, and solution", "why_tests_cant": "Ranges over all solutions of all models.", "anchors": ["src/calliope/math/base.yaml:balance_demand", "src/calliope/math/base.yaml:balance_demand_min_use", "src/calliope/math/base.yaml:balance_supply_no_storage", "src/calliope/math/base.yaml:source_availability_supply", "src/calliope/math/base.yaml:balance_supply_min_use"]}
{"id": "C85", "title": "Flows ramp no faster than allowed", "statement": "In any solution, the net flow per hour of a technology with a ramping rate changes from one time step to the next by at most the rate times the capacity, and between any two time steps by at most the sum of this over the steps between; nothing else is ruled out by ramping limits.", "quantifier": "every network, technology with a ramping rate, pair of time steps and solution", "why_tests_cant": "Ranges over all solutions and all numbers of time steps.", "anchors": ["src/calliope/math/base.yaml:ramping_up", "src/calliope/math/base.yaml:ramping_down"]}
{"id": "C86", "title": "Postprocessed results mean what their names say", "statement": "After a solve, the capacity factor of a technology is its outflow over what its capacity could give in the time step, the systemwide one that of all nodes and the whole (weighted) period, both between 0 and 1 and given exactly where there is capacity; levelised costs times generation add up to the costs; the unmet sum is the unmet demand less the unused supply; curtailment is the part of the available source that is not used, between 0 and 1, and total curtailment the same for the whole period.", "quantifier": "every network, solution, time step, technology, node and carrier", "why_tests_cant": "Ranges over all solutions of all models.", "anchors": ["src/calliope/math/base.yaml:postprocessed", "src/calliope/backend/backend_model.py:_add_postprocessed", "src/calliope/backend/backend_model.py:add_postprocessed_arrays"]}
{"id": "C87", "title": "Checks of the input data", "statement": "Building a model stops with an error if and only if the condition of an active check that is to raise is true for a technology at a node, and reports the messages of all such checks, each once; checks that are to warn are reported whether or not it stops. So in a model that was built every technology has a base technology, only links have values per distance, capacity that one is paid for has a maximum, values to be met are finite, initial levels are fractions, nodes have both coordinates or none has any, and what is exported is given out.", "quantifier": "every input data set and list of checks", "why_tests_cant": "Ranges over all input data.", "anchors": ["src/calliope/backend/backend_model.py:_check_inputs", "src/calliope/exceptions.py:print_warnings_and_raise_errors", "src/calliope/math/base.yaml:checks", "src/calliope/math/milp.yaml:checks", "src/calliope/math/operate.yaml:checks"]}
{"id": "C88", "title": "Defaults", "statement": "An item for which an input is left out has the default of this input, whatever is given for other items; an item for which it is given has what is given.", "quantifier": "every input, item and data set", "why_tests_cant": "Ranges over all data sets.", "anchors": ["src/calliope/preprocess/model_data.py:_update_dtypes", "src/calliope/preprocess/model_data.py:clean_data_from_undefined_members", "src/calliope/backend/backend_model.py:_add_all_inputs_as_parameters"]}
{"id": "C89", "title": "Capacities keep to the rules given", "statement": "In any solution, the flow capacity of storage is between the given shares of its storage capacity; a source capacity asked to equal the flow capacity does; the area of a technology is its flow capacity times the area per capacity, and nothing where it cannot be built, and the areas at a node together fit the area it has; the capacity of a technology at all nodes together is between the smallest and largest given; both ends of a link have the same capacity; outflow is at least the given part of what the capacity gives; and nothing else is ruled out by these rules.", "quantifier": "every network, technology, node, carrier, time step and solution", "why_tests_cant": "Ranges over all solutions of all models.", "anchors": ["src/calliope/math/base.yaml:flow_capacity_per_storage_capacity_min", "src/calliope/math/base.yaml:flow_capacity_per_storage_capacity_max", "src/calliope/math/base.yaml:source_capacity_equals_flow_capacity", "src/calliope/math/base.yaml:force_zero_area_use", "src/calliope/math/base.yaml:area_use_per_flow_capacity", "src/calliope/math/base.yaml:area_use_capacity_per_loc", "src/calliope/math/base.yaml:flow_capacity_systemwide_max", "src/calliope/math/base.yaml:flow_capacity_systemwide_min", "src/calliope/math/base.yaml:symmetric_transmission", "src/calliope/math/base.yaml:flow_out_min"]}
{"id": "C90", "title": "Results hold what was found, and the shadow prices that were asked for", "statement": "After an optimal solve the results hold, under its own name, the value found for every decision variable, global expression and objective that has any value, and the shadow prices found for exactly the constraints of the model that were asked for in this solve, whatever was solved before, in every mode; asking for a warm start makes the solver start from the last solution. Each solve is done with the solver and the options given for it, all of them and no others, whatever was solved before.", "quantifier": "every history of solves, configuration, set of names asked for, number and length of operate mode windows, and solution", "why_tests_cant": "Ranges over all histories of solves and all solutions.", "anchors": ["src/calliope/backend/backend_model.py:load_results", "src/calliope/backend/backend_model.py:ShadowPrices", "src/calliope/backend/pyomo_backend_model.py:_solve", "src/calliope/backend/pyomo_backend_model.py:PyomoShadowPrices", "src/calliope/model.py:solve", "src/calliope/model.py:_solve_operate"]}
{"id": "C91", "title": "A piecewise constraint ties two expressions by the given points", "statement": "Adding a piecewise constraint builds it exactly at the items of its foreach and where, and a solution satisfies it there exactly if the values of its x and y expressions are on the line through the points that the x and y values give, breakpoint by breakpoint; so with x at a breakpoint, y is the value given there, and x is within the breakpoints. A definition over breakpoints is an error, and an inactive one adds nothing.", "quantifier": "every definition, data with any values missing at any breakpoint, set of items, and solution", "why_tests_cant": "Ranges over all data, also with missing values, and all solutions.", "anchors": ["src/calliope/backend/backend_model.py:add_piecewise_constraint", "src/calliope/backend/pyomo_backend_model.py:_to_piecewise_constraint", "src/calliope/backend/gurobi_backend_model.py:_to_piecewise_constraint"]}
{"id": "C92", "title": "Running a model from the command line does what its options say", "statement": "`calliope run` reads the model file in the format given by the option or else by the file's ending, with the scenario and overrides, which a NetCDF model may not have. With an LP file asked for, it builds the model, writes that file and does not solve. Otherwise it solves the model with the options given and saves what is asked for. It exits with 0 exactly if all this worked and, if failing was asked for, the solution is optimal; it writes no file that was not asked for, and all that were asked for if it exits with 0 or fails only because the solution is not optimal.", "quantifier": "every combination of options, model, and behaviour of reading, building, solving and saving", "why_tests_cant": "Ranges over all combinations of options and all failures of each step.", "anchors": ["src/calliope/cli.py:run", "src/calliope/cli.py:_run_setup_model", "src/calliope/cli.py:format_exceptions", "src/calliope/model.py:Model.solve"]}
{"id": "C93", "title": "A model saved to NetCDF and read back is the same model, whenever saving stops", "statement": "A model that is saved with `to_netcdf` and read with `read_netcdf` has the same configuration, math, runtime attributes, results and inputs (labels, dimensions and values), and counts as solved if and only if it did. No subset, resampling, clustering or math is applied again. If saving is interrupted between its writes, or there is no NetCDF file at the path, reading raises and does not return part of a model. Nothing of a file that was at the path before remains. Clustering cannot be changed on reading. A new model gets what its configuration asks for, in a fixed order and once.", "quantifier": "every model, configuration, previous content of the path, override on reading, and point between writes at which saving stops", "why_tests_cant": "Ranges over all models and crash points; tests save and read two example models.", "anchors": ["src/calliope/model.py:read_netcdf", "src/calliope/model.py:Model.__init__", "src/calliope/model.py:Model.to_netcdf", "src/calliope/io.py:read_netcdf", "src/calliope/io.py:save_netcdf", "src/calliope/preprocess/model_data.py:ModelDataCleaner.clean", "src/calliope/preprocess/model_data.py:ModelDataCleaner.update_and_resample_dimensions"]}
{"id": "C94", "title": "CSV files hold the inputs and results, all of them and nothing else", "statement": "`to_csv` writes one file per input and per result, named after it, with one row for each combination of labels and its value (without missing values if asked for), and `attrs.yaml` with the attributes. Inputs and results of the same name do not overwrite each other. If there is something at the path it raises and changes nothing, unless it is a directory and overwriting is allowed; then files of other names remain as they are. If saving is interrupted, each file is what it was or what it is to be.", "quantifier": "every dataset of inputs and results, option, previous content of the path, and number of files written before an interruption", "why_tests_cant": "Ranges over all datasets, names, directories and crash points.", "anchors": ["src/calliope/io.py:save_csv", "src/calliope/model.py:Model.to_csv"]}
{"id": "C95", "title": "What purchases cost, and what counts as cost in operate mode", "statement": "With units, the investment of a technology at a node is that of a model without units, and its purchase price times its units; a link pays its price, and its price per distance times its length, times its units, one half at each of its ends. Annualised and yearly costs take the whole of that investment. In operate mode, the cost of a technology is the sum over time steps of what its flows cost, each step times its weight, and nothing that was decided before.", "quantifier": "every model, price, decision, length and number of time steps", "why_tests_cant": "Ranges over all models, prices and decisions.", "anchors": ["src/calliope/math/milp.yaml:cost_investment_purchase", "src/calliope/math/milp.yaml:cost_investment", "src/calliope/math/operate.yaml:cost", "src/calliope/math/base.yaml:cost_operation_fixed"]}
{"id": "C96", "title": "The solver works on the components that the backend holds, and on nothing else", "statement": "After any sequence of calls that add and delete variables, constraints and piecewise constraints, whether or not they fail, and of updates of inputs (which delete and add again what depends on the input), the problem given to the solver consists of the objects of the components that the backend then holds: none is missing, and none is left over from a component that was deleted or replaced or that could not be built. So a point is feasible for the solver if and only if it does what the components say.", "quantifier": "every sequence of calls, failing or not, and every content of the components", "why_tests_cant": "Ranges over all histories of calls; what is left over acts on every later solution.", "anchors": ["src/calliope/backend/pyomo_backend_model.py:delete_component", "src/calliope/backend/pyomo_backend_model.py:_create_backend_obj_adding_component", "src/calliope/backend/gurobi_backend_model.py:delete_component", "src/calliope/backend/gurobi_backend_model.py:_to_piecewise_constraint", "src/calliope/backend/backend_model.py:_raise_error_on_preexistence"]}
{"id": "C97", "title": "SPORES saved one by one are not lost, wherever a run stops", "statement": "If a folder is given, each SPORE is saved to the file with its number as soon as it has been found. Wherever a run stops, by an error or the end of the process, every SPORE found before the last call of the solver is in its file, with its results; no file holds results of another SPORE of the run. After a whole run, or one that continues from earlier results, each SPORE among the results is in its file; the results in memory differ from those in files only by the zero threshold.", "quantifier": "every run from scratch or continued, every behaviour of the solver, every point at which the run stops and every earlier content of the folder", "why_tests_cant": "Ranges over all crash points and all sequences of solver outcomes.", "anchors": ["src/calliope/model.py:_spores_save_model", "src/calliope/model.py:_solve_spores", "src/calliope/model.py:_apply_zero_threshold", "src/calliope/io.py:save_netcdf"]}
{"id": "C98", "title": "Verbose names say which object they belong to", "statement": "Each variable, constraint and parameter object of the optimisation problem has a name of its own: two objects with the same name are of the same component and at the same coordinates. After verbose_strings, the name is the component followed by the labels of the object's coordinates, and stays so through deletions and updates of inputs, which build components again. Asking for such names does not change the data of the backend.", "quantifier": "every sequence of additions, deletions, updates of inputs and requests for verbose strings, every set of components and coordinates", "why_tests_cant": "Ranges over all histories of calls and all labels.", "anchors": ["src/calliope/backend/pyomo_backend_model.py:verbose_strings", "src/calliope/backend/pyomo_backend_model.py:_update_name", "src/calliope/backend/gurobi_backend_model.py:verbose_strings", "src/calliope/backend/backend_model.py:_datetime_as_string", "src/calliope/backend/backend_model.py:_update_input"]}
{"id": "C99", "title": "The math documentation describes the problem", "statement": "The document written by MathDocumentation lists, under each heading and in alphabetical order without repetition, the active components: all of them with include='all', those that exist for some index item with include='valid', each with its equations. 'Used in' and 'uses' are inverse to each other and say which definitions name which components; parameters and lookups are listed when some component uses them. The active objective is marked. The format is the one asked for or that of the file.", "quantifier": "every set of definitions, every history of additions and deletions, both settings of include, every file name and format", "why_tests_cant": "Ranges over all math definitions and models.", "anchors": ["src/calliope/backend/latex_backend_model.py:LatexBackendModel.generate_math_doc", "src/calliope/backend/latex_backend_model.py:LatexBackendModel.add_variable", "src/calliope/backend/latex_backend_model.py:LatexBackendModel._generate_math_string", "src/calliope/backend/latex_backend_model.py:LatexBackendModel._eval_equations", "src/calliope/backend/backend_model.py:_update_references", "src/calliope/postprocess/math_documentation.py:MathDocumentation"]}
{"id": "C100", "title": "Results are the values of the solution", "statement": "After a solve, the results have every variable, global expression and objective of the problem; at every item where a component is defined, the result is the number that its definition gives with the solver's values of the variables, and nothing elsewhere. Both solver interfaces give the same results for the same solution.", "quantifier": "every problem, every array of expressions (linear or quadratic), every assignment of values to variables", "why_tests_cant": "Ranges over all problems and solutions.", "anchors": ["src/calliope/backend/backend_model.py:BackendModel.load_results", "src/calliope/backend/backend_model.py:BackendModel._apply_func", "src/calliope/backend/pyomo_backend_model.py:PyomoBackendModel._get_expression", "src/calliope/backend/pyomo_backend_model.py:PyomoBackendModel.get_variable", "src/calliope/backend/gurobi_backend_model.py:GurobiBackendModel._get_expression"]}
{"id": "C101", "title": "Math strings mean what they spell", "statement": "An equation, expression, sub-expression or slice string is accepted exactly if it can be written by the grammar of math strings (numbers, names, sliced components, helper functions, brackets, signs, ^, * and /, + and - with their usual precedence, one comparison in an equation), blanks between words are free, and it then has one meaning: the expression that it spells. A string that passes the validation of the math is read in the same way when the problem is built, as long as the names that it uses are active.", "quantifier": "every string, every set of component names (active or not)", "why_tests_cant": "Ranges over all strings and all sets of names; precedence, nesting and backtracking have no bound.", "anchors": ["src/calliope/backend/expression_parser.py:generate_arithmetic_parser", "src/calliope/backend/expression_parser.py:generate_equation_parser", "src/calliope/backend/expression_parser.py:generate_slice_parser", "src/calliope/backend/expression_parser.py:generate_sub_expression_parser", "src/calliope/backend/parsing.py:ParsedBackendComponent.generate_expression_list", "src/calliope/preprocess/model_math.py:_validate_math_string_parsing", "src/calliope/schemas/math_schema.py:CalliopeBuildMath.parsing_components"]}
{"id": "C102", "title": "Where strings mean what they spell", "statement": "A where string is accepted exactly if it can be written by the grammar of conditions (true and false, comparisons of arithmetic with a value, helper functions, subsets of dimensions, names of inputs and results, brackets, not, and, or; the words in any case), and it then has one meaning: the condition that it spells, in which not binds more tightly than and and or, which are read from left to right. A where string that passes the validation of the math is read in the same way when the problem is built, also if it names components that are not active, as long as the dimensions that it uses are active, and the parameters and lookups that it uses are active if a variable or expression has the same name.", "quantifier": "every string, every set of dimension, input and result names (active or not)", "why_tests_cant": "Ranges over all strings and all sets of names; nesting and backtracking between brackets of conditions and brackets of arithmetic have no bound.", "anchors": ["src/calliope/backend/where_parser.py:generate_where_string_parser", "src/calliope/backend/where_parser.py:where_parser", "src/calliope/backend/where_parser.py:comparison_parser", "src/calliope/backend/where_parser.py:subset_parser", "src/calliope/backend/parsing.py:ParsedBackendComponent.parse_where_string", "src/calliope/preprocess/model_math.py:_validate_math_string_parsing", "src/calliope/schemas/math_schema.py:CalliopeBuildMath.parsing_components"]}
{"id": "C103", "title": "The math files mean the modelled math, whatever is added", "statement": "For base mode, operate mode, SPORES mode and base mode with the MILP or the inter-cluster storage math, the strings of the shipped math files, merged in the order of modes and extra math, are read as exactly the components that the theorems on balances, limits, costs, storage, units and clusters are about, in the order in which a backend adds them. Extra math that gives new names, or defines parameters and other components that the strings mention again without changing what they stand for or whether they are active, leaves every component that it does not define again as it is, and in its order.", "quantifier": "every math file and every extra math file that keeps the names that strings mention as they are; every component that the extra file does not define; the shipped math files of every mode", "why_tests_cant": "A test compares the results of a few models; it can neither show that each of some four hundred strings means what the documentation says nor that no extra math changes the meaning of the strings of the base math", "anchors": ["src/calliope/math/base.yaml", "src/calliope/math/milp.yaml", "src/calliope/math/operate.yaml", "src/calliope/math/spores.yaml", "src/calliope/math/storage_inter_cluster.yaml", "src/calliope/preprocess/model_math.py:get_math_priority", "src/calliope/preprocess/model_math.py:build_math", "src/calliope/backend/parsing.py:ParsedBackendComponent", "src/calliope/schemas/math_schema.py:CalliopeBuildMath.parsing_components"]}
{"id": "C104", "title": "Math that passes validation can be built", "statement": "The math of a model passes the validation of its strings exactly if every where string and expression of its variables, global expressions, constraints and objectives, active or not, can be written by the grammars of C101 and C102 with the names of all components. If it passes, and what the active components use is active (dimensions in where strings, inputs in where strings that have the name of a variable or expression, and all names in expressions), no string is refused when the problem is built, and each component is read as it was read by the validation.", "quantifier": "every math (any number of dimensions, parameters, lookups, variables, expressions, constraints and objectives, active or not, with any strings)", "why_tests_cant": "A test validates a few maths; it cannot show that no accepted math has a string that fails later, in the middle of building", "anchors": ["src/calliope/preprocess/model_math.py:_validate_math_string_parsing", "src/calliope/preprocess/model_math.py:build_math", "src/calliope/schemas/math_schema.py:CalliopeBuildMath.unique_component_names", "src/calliope/schemas/math_schema.py:CalliopeBuildMath.parsing_components", "src/calliope/backend/parsing.py:ParsedBackendComponent.parse_top_level_where", "src/calliope/backend/parsing.py:ParsedBackendComponent.parse_equations"]}
{"id": "C105", "title": "The documentation gives every array the indices with which it is evaluated", "statement": "The LaTeX text that documents an expression, read at a choice of labels for all dimensions, has the value that the array of the expression holds there: subscripts are those of the array, sliced dimensions show the label, lookup or position, rolled arrays show the index of the earlier or later step, looked-up arrays show the lookup, and sums show the dimensions and the condition over which terms are added.", "quantifier": "every expression, environment of arrays (any dimensions, labels, values, lookup arrays, missing values) and point", "why_tests_cant": "A test compares a few strings with expected strings; it cannot show that the text of every nesting of helper functions means what is computed", "anchors": ["src/calliope/backend/helper_functions.py:ParsingHelperFunction._update_iterator", "src/calliope/backend/helper_functions.py:Sum.as_math_string", "src/calliope/backend/helper_functions.py:Roll.as_math_string", "src/calliope/backend/helper_functions.py:SelectFromLookupArrays.as_math_string", "src/calliope/backend/helper_functions.py:GroupSum.as_math_string", "src/calliope/backend/helper_functions.py:GroupDatetime.as_math_string", "src/calliope/backend/helper_functions.py:GetValAtIndex.as_math_string", "src/calliope/backend/expression_parser.py:EvalSlicedComponent.as_math_string"]}
{"id": "C106", "title": "Documented conditions say where they hold", "statement": "The LaTeX text that documents a condition says of every item of the model whether the condition holds for it: that an input or result exists, that a comparison holds, that a label is in a list, that something holds for some label of a dimension, and that members of one dimension are defined within a member of another.", "quantifier": "every where string, environment (any dimensions, labels, inputs with missing, infinite, Boolean or text values, definition matrix) and item", "why_tests_cant": "A test compares a few strings; it cannot show that the text means what is evaluated for all data", "anchors": ["src/calliope/backend/where_parser.py:InputArrayParser.as_math_string", "src/calliope/backend/where_parser.py:ResultArrayParser.as_math_string", "src/calliope/backend/where_parser.py:ComparisonParser.as_math_string", "src/calliope/backend/where_parser.py:SubsetParser.as_math_string", "src/calliope/backend/helper_functions.py:WhereAny.as_math_string", "src/calliope/backend/helper_functions.py:Defined.as_math_string"]}
{"id": "C107", "title": "Data table definitions that pass validation can be loaded", "statement": "A data table definition is rejected when the model is defined exactly if no table could be loaded by it: rows or columns are named and not dropped, do not overlap, added dimensions are not there already, and dimensions are renamed to those of the definition. A definition that is accepted can be loaded.", "quantifier": "every data table definition and every table, of any shape", "why_tests_cant": "A test tries a few definitions; that acceptance and loading agree is a statement about all tables", "anchors": ["src/calliope/schemas/data_table_schema.py:CalliopeDataTable.check_row_and_columns", "src/calliope/schemas/general.py:_validate_unique_list", "src/calliope/preprocess/data_tables.py:DataTable._df_to_ds"]}
{"id": "C108", "title": "A model that is built again is the model that was solved", "statement": "Components can be added to, deleted from and updated in the backend between solves. The math kept with the model is that of the problem last solved, and building a solved model again gives that problem.", "quantifier": "every math definition, inputs and history of build, solve, add, delete and update calls, failing ones included", "why_tests_cant": "Ranges over histories of any length", "anchors": ["src/calliope/model.py:Model.build", "src/calliope/model.py:Model.solve", "src/calliope/backend/backend_model.py:BackendModelGenerator._add_to_dataset", "src/calliope/backend/backend_model.py:BackendModel._rebuild_references", "src/calliope/backend/pyomo_backend_model.py:PyomoBackendModel.delete_component"]}
{"id": "C109", "title": "A name that the schema accepts can be used in math strings", "statement": "Every name that a model definition may give to a component can be referred to in expressions and conditions, and is read there as the component of this name.", "quantifier": "every name, every set of components and every math string, of any length", "why_tests_cant": "A test tries a few names; the pattern of names and the grammar of strings are defined apart, and agreement is a statement about all texts", "anchors": ["src/calliope/schemas/general.py:AttrStr", "src/calliope/backend/expression_parser.py:generate_equation_parser", "src/calliope/backend/where_parser.py:generate_where_string_parser"]}
{"id": "C110", "title": "Input data definitions that pass validation can be loaded", "statement": "Indexed input data of technologies, nodes and the top level is rejected by validation exactly if it cannot be loaded: entries of the index must be different, have a label for each dimension, and data must have their number. A technology or node does not repeat its own dimension. The coordinates of a node are accepted exactly if both or none are given, in range.", "quantifier": "every definition of indexed data, of any number of dimensions, entries and items, and all coordinates", "why_tests_cant": "A test tries a few definitions; that acceptance and loading agree is a statement about all of them", "anchors": ["src/calliope/schemas/dimension_data_schema.py:IndexedData", "src/calliope/schemas/dimension_data_schema.py:IndexedTechNodeParam.check_dims", "src/calliope/schemas/dimension_data_schema.py:CalliopeNode.check_dependent_definitions", "src/calliope/schemas/general.py:_validate_unique_list", "src/calliope/preprocess/model_data.py:ModelDataBuilder._prepare_input_data_dict"]}
{"id": "C111", "title": "A change of data reaches only components that use it", "statement": "If some inputs change (or the values of some variables), every variable, global expression, constraint and objective stays as it was unless an array that changes stands in its strings, directly or through other variables and global expressions. Inputs that stand in no string of the active math make no difference: the same problem is built, or building fails the same way.", "quantifier": "all math (any number of components, conditions, sub-expressions and slices), all pairs of input data over the same dimensions, labels and definition matrix, all values of variables", "why_tests_cant": "A test changes one input of one model; that nothing else can change is a statement about all math and all data", "anchors": ["src/calliope/backend/backend_model.py:BackendModelGenerator.add_optimisation_components", "src/calliope/backend/backend_model.py:BackendModelGenerator._add_to_dataset", "src/calliope/backend/backend_model.py:BackendModelGenerator._eval_equations", "src/calliope/backend/parsing.py:ParsedBackendEquation.evaluate_expression", "src/calliope/backend/parsing.py:ParsedBackendEquation.evaluate_where"]}
{"id": "C112", "title": "Constraints restrict decisions", "statement": "In every mode, each equation of each active constraint of the shipped math compares something that depends on a decision variable, so that a plan can be chosen to satisfy it.", "quantifier": "all constraints of the shipped math of base, operate and SPORES mode and of the extra math, all input data and all values of decision variables", "why_tests_cant": "That a constraint cannot be influenced by any decision is a statement about all solutions and all data", "anchors": ["src/calliope/math/operate.yaml", "src/calliope/math/milp.yaml", "src/calliope/math/base.yaml", "src/calliope/math/spores.yaml", "src/calliope/math/storage_inter_cluster.yaml", "src/calliope/preprocess/model_math.py:build_math"]}
{"id": "C113", "title": "The order of components does not matter, or it is an error", "statement": "Math components may stand in any order as long as no variable and no global expression is built before one that it names: every such order gives the same problem, with the same variables, expressions, constraints and objectives. If a component is built before one that stands in its condition or in an equation that applies, building fails: it is never built with a default or missing value in its place. If no variable names a global expression, every definition holds in the finished problem: each variable has items exactly where its condition holds there, and each global expression is what its definition gives there. The shipped math of all modes, with the order that its files and their `order` keys give, names only what is built before.", "quantifier": "all math (any number of components in any order), all input data, all values of variables", "why_tests_cant": "Tests build the files in the one order in which they are written; independence of the order is a statement about all permutations", "anchors": ["src/calliope/backend/backend_model.py:BackendModelGenerator.add_optimisation_components", "src/calliope/backend/backend_model.py:BackendModelGenerator._sorted_by_order", "src/calliope/backend/backend_model.py:BackendModelGenerator._add_to_dataset", "src/calliope/backend/expression_parser.py:EvalUnslicedComponent", "src/calliope/backend/where_parser.py:ResultArrayParser"]}
{"id": "C114", "title": "A plan at fine time resolution, added up over coarser time steps, is a plan of the resampled model at the same cost", "statement": "Resample a model to coarser time steps and take any plan of the fine model: add up the flows, the use of sources and exports of the time steps of each interval, keep capacities, and take the storage level at the end of each interval. Then all of these hold in the resampled model: limits of flows, sources, storage and export, the balances of carriers, conversion and transmission, demand and sources, and storage; and every cost is the same. The conditions are: demands and limits of sources and sinks are given per time step for all time steps of an interval or for none, efficiencies and prices do not change within an interval, and storage has no losses. Each is needed. A demand that is one number rather than a series is not multiplied, so the sum of demand shrinks and the plan is not one of the resampled model. Nor is it if a limit is given for some time steps of an interval only and the plan uses more. With an efficiency that changes it is exactly if the inflow, weighted with the deviation from the mean efficiency, is zero in sum; with losses exactly if the losses within intervals are zero in sum. Ramping limits are not kept at all: the average flow of an interval is compared to that of the interval before with the rate of one step, so that a plan that ramps steadily within its rate violates them.", "quantifier": "all input data and all plans; all numbers of time steps and all ways to cut them into consecutive intervals, of the same length or not; all nodes, technologies and carriers", "why_tests_cant": "Tests compare resampled numbers of one series; that feasible plans stay feasible is a statement about all plans and data", "anchors": ["src/calliope/preprocess/time.py:resample", "src/calliope/math/base.yaml:parameters", "src/calliope/math/base.yaml:constraints", "src/calliope/math/base.yaml:global_expressions"]}
{"id": "C115", "title": "What is written in the documented syntax is read back as exactly that", "statement": "Every arithmetic expression, equation, sub-expression, slice and where condition that is written down in the documented syntax is read as the very expression that was written: names as references, numbers as their value, operators with the operands on the sides on which they stand, and each helper function with each of its arguments in its documented place. The same holds of whole constraints, expressions, variables and checks. Two different expressions never have the same text.", "quantifier": "all expressions and conditions of any depth; all names, numbers and labels; all helper functions of the package with any arguments; all components with any number of equations, sub-expressions and slices", "why_tests_cant": "Tests parse a few dozen strings; that no expression is misread is a statement about expressions of any depth", "anchors": ["src/calliope/backend/expression_parser.py", "src/calliope/backend/where_parser.py", "src/calliope/backend/parsing.py", "src/calliope/backend/helper_functions.py", "src/calliope/schemas/math_schema.py", "docs/user_defined_math/syntax.md", "docs/user_defined_math/helper_functions.md"]}
{"id": "C116", "title": "Of math files applied one over the other, the last that says something counts, and nothing else is lost or gained", "statement": "Apply math files in order. Each component of the result is in one of the files, each component of a file is in the result, once, at the place where it is first. Each part of a component (whether it is active, foreach, where, equations, bounds, domain, order, sense, message, each sub-expression and each slice) is the one given by the last file that gives that part; parts that no later file gives stay. The result is refused exactly if a file of that name is missing, or two active components of different groups have the same name, or an active global expression, constraint, objective or postprocessed array has no equation. Math of a mode counts over the base math, and extra math over both. The backend gets exactly the active components of the result, by their order number, and those of the same number in their order in the result.", "quantifier": "all lists of math files of any length with any contents (keys differ, as in every dictionary); all groups, components and parts", "why_tests_cant": "Tests merge two small files; the rule for every part, over any number of files, is not settled by them", "anchors": ["src/calliope/preprocess/model_math.py:build_math", "src/calliope/schemas/math_schema.py:unique_component_names", "src/calliope/schemas/math_schema.py:must_have_equations_if_active", "src/calliope/attrdict.py:union"]}
{"id": "C117", "title": "The shipped math makes linear problems: a mixture of two plans is a plan at the mixed cost", "statement": "In every problem that is built from the shipped math (base, operate, SPORES, inter-cluster storage, and milp but for its integers), whatever the input data, decisions are only added, subtracted and multiplied or divided by data. So whether the problem can be built, and which items its components have, does not depend on the values of decisions; both sides of each constraint and each objective of a mixture of two plans are the mixtures of theirs. Without integer variables, any mixture of two plans that keep to constraints and bounds keeps to them, and costs as much of each as is in it; so no plan is only locally the best. Math of a user that is not linear is built without complaint, and none of this need hold of it.", "quantifier": "all math definitions in which decisions stand linearly, with any number of components and any depth of expressions; all input data, items, pairs of plans and proportions", "why_tests_cant": "That a problem is linear for all data and plans is not seen from solving some of them", "anchors": ["src/calliope/math/base.yaml", "src/calliope/math/operate.yaml", "src/calliope/math/spores.yaml", "src/calliope/math/milp.yaml", "src/calliope/math/storage_inter_cluster.yaml", "src/calliope/backend/backend_model.py:add_optimisation_components", "src/calliope/backend/expression_parser.py", "src/calliope/backend/helper_functions.py"]}
{"id": "C118", "title": "A model in other units of energy, cost and area has the same plans", "statement": "If all inputs of a model are given in other units of energy, cost and area, each multiplied by the factor of its own unit, then the problem can be built exactly if it could before, for the same reason otherwise, and it has the same items; both sides of every constraint, and each objective, are multiplied by the factor of their unit. Decisions are a plan exactly if they are one in the other units, and a cheapest one exactly if they are a cheapest one there. This holds of all math whose units are consistent: only numbers of one unit are added or compared, powers and conditions on numbers other than zero have none. The base math and that of operate mode are consistent in energy, cost and area if all sinks are given in one of the three ways of `sink_unit` and all sources in one of those of `source_unit` (in energy and cost if none is given per capacity, and in cost always). Those of SPORES mode and `milp` are without `ensure_feasibility`; with it they are in no system of units that tells energy from cost, because of `bigM`. With `storage_inter_cluster` there is no system in which the storage capacity has a unit: one constraint takes `storage_initial` for an amount, another for a fraction of the capacity.", "quantifier": "all math definitions with consistent units, any number of components and any depth of expressions; all input data, plans and positive factors", "why_tests_cant": "That no result depends on the choice of units is not seen from solving some models in some units", "anchors": ["docs/getting_started/concepts.md", "src/calliope/math/base.yaml", "src/calliope/math/operate.yaml", "src/calliope/math/spores.yaml", "src/calliope/math/milp.yaml", "src/calliope/math/storage_inter_cluster.yaml", "src/calliope/backend/backend_model.py:add_optimisation_components", "src/calliope/backend/expression_parser.py", "src/calliope/backend/where_parser.py"]}
{"id": "C119", "title": "Looser limits and lower prices never make the best plan worse", "statement": "If upper limits of a model are raised, lower limits lowered and prices lowered, each by any amount at any coordinates as long as it stays given, finite and of the same sign, then the problem can be built exactly if it could before, every plan is still a plan, and no objective of it rises. So a number that no plan costs less than afterwards is one that no plan cost less than before. This holds of all math in which the sides of each constraint move apart: what is sought with `<=` has a left side that does not rise and a right side that does not fall, and both sides of an equality stay. The base math, those of operate and SPORES mode and `storage_inter_cluster` are such math for all limits on capacities, area, sources, sinks, export, ramping, relative minimum outflow and discharge depth and for all prices (in SPORES mode also for the slack), and `milp` is for the same limits but `flow_cap_max` and for those on purchased units.", "quantifier": "all math definitions with this shape, any number of components and any depth of expressions; all input data, plans whose decisions have their signs, and amounts", "why_tests_cant": "That no model gets worse when a limit is loosened is not seen from solving some models", "anchors": ["src/calliope/math/base.yaml", "src/calliope/math/operate.yaml", "src/calliope/math/spores.yaml", "src/calliope/math/milp.yaml", "src/calliope/math/storage_inter_cluster.yaml", "src/calliope/backend/backend_model.py:add_optimisation_components", "src/calliope/backend/expression_parser.py", "src/calliope/backend/where_parser.py"]}
{"id": "C120", "title": "The names and the order of nodes, technologies, carriers and cost classes do not matter", "statement": "If nodes, technologies, carriers and cost classes get other names and are listed in another order, and all data is that of the same item under its new name, then the problem can be built exactly if it could before and with the same error otherwise, every constraint has the same items under new names with the same values on both sides, the same decisions under new names are a plan exactly if they were one, each objective has the same value, and the best plans are the same. This holds of all math that names no label of these dimensions and does not use their order: no slice, membership, comparison, shift, index or lookup along them. The base math, those of operate and SPORES mode, `storage_inter_cluster` and `milp` are such math. Math that names a technology does depend on its name.", "quantifier": "all math definitions that name no label, any number of components and any depth of expressions; all input data, renamings, orders and plans", "why_tests_cant": "That no result depends on the alphabetical or listed order of names cannot be seen from some names", "anchors": ["src/calliope/math/base.yaml", "src/calliope/math/operate.yaml", "src/calliope/math/spores.yaml", "src/calliope/math/milp.yaml", "src/calliope/math/storage_inter_cluster.yaml", "src/calliope/backend/backend_model.py:add_optimisation_components", "src/calliope/backend/expression_parser.py", "src/calliope/backend/where_parser.py", "src/calliope/backend/helper_functions.py"]}
{"id": "C121", "title": "Typical time steps with weights stand for all time steps they are like", "statement": "Let a model hold, instead of all time steps, a few typical ones, each with the sum of the weights of the steps that it stands for, every step being like its typical step in all other data. Then the decisions of the typical steps, repeated in every step they stand for, are a plan exactly if they are a plan of the model of typical steps, every constraint has the same values at a step as at its typical step, each objective has the same value, and the problem can be built for both or fails for both with the same error; so the best plan for all steps costs no more than any plan for typical steps. This holds of all math in which conditions do not name steps, nothing at a step depends on another step, and sums over steps are only sums of what is multiplied by the weight of the step once. The math of plan, operate and SPORES mode, `milp` and `storage_inter_cluster` is such math as long as nothing stores and ramping is not limited. In general five constraints of the base math, and no others, depend on more than one step: balance_supply_with_storage, balance_storage, set_storage_initial, ramping_up and ramping_down. A limit of an unweighted sum holds for typical steps and fails for all steps.", "quantifier": "all math definitions of single steps, any number of components and any depth of expressions; all input data, weights, numbers of steps, choices of typical steps and plans", "why_tests_cant": "Whether every sum over time carries its weight, and no constraint carries it twice, shows only if a clustered and a full model agree for all data; a test compares one model with stored numbers", "anchors": ["src/calliope/math/base.yaml", "src/calliope/math/operate.yaml", "src/calliope/math/spores.yaml", "src/calliope/math/milp.yaml", "src/calliope/math/storage_inter_cluster.yaml", "src/calliope/preprocess/time.py:cluster", "src/calliope/backend/backend_model.py:add_optimisation_components", "src/calliope/backend/expression_parser.py", "src/calliope/backend/where_parser.py"]}
{"id": "C122", "title": "Typical time steps give the best plan of all time steps they stand for", "statement": "Let a model hold, instead of all time steps, a few typical ones, each with the sum of the weights of the steps that it stands for, every step being like its typical step in all other data, and let all weights be positive. Then in linear math of single steps in which integer decisions are not decisions per step, the averages of the decisions of any plan for all steps, each step counting as much as its weight, are a plan for typical steps with the same value of each objective; with C121 each objective attains the same values for all steps as for typical steps, so the best plan for typical steps is exactly as good as the best plan for all steps. The math of plan, operate and SPORES mode is such math as long as nothing stores and ramping is not limited. The `milp` math is not: it has integer decisions per step, and with integer decisions per step a value that plans for all steps attain can be one that no plan for typical steps attains.", "quantifier": "all linear math definitions of single steps, any number of components and any depth of expressions; all input data, positive weights, numbers of steps, choices of typical steps and plans", "why_tests_cant": "That nothing is lost by modelling typical steps compares the optimum over infinitely many plans of two problems, for all data; a test solves one pair of problems", "anchors": ["src/calliope/math/base.yaml", "src/calliope/math/operate.yaml", "src/calliope/math/spores.yaml", "src/calliope/math/milp.yaml", "src/calliope/preprocess/time.py:cluster", "src/calliope/backend/backend_model.py:add_optimisation_components", "src/calliope/backend/expression_parser.py", "src/calliope/backend/where_parser.py"]}
{"id": "C123", "title": "Messages are shown once, from the level that was asked for, whatever was asked for before", "statement": "After any calls of `set_log_verbosity`, some of them perhaps rejected because of an unknown level, a message of one of the modules of Calliope is shown on one console if its level is at least that of the last call that was accepted, and else not at all; handlers that the program has for all of Python get it as well, once. Solver output is shown once after a call that asks for it or for a level of at most 10, and else not at all. Warnings of Python are shown once if the last accepted call captures them and has a level of at most 30, and else not by Calliope; handlers that warnings had before are kept. A rejected call changes none of Calliope's own messages, but turns solver output on unless it was called with `include_solver_output=False`. Level 0 stands for the level of Python's root logger, so that it can show less than level 10. On the command line `--debug` shows all, `--quiet` alone hides solver output and what is below a warning, and else all but messages for debugging is shown; warnings always. Of what solvers write only line breaks by themselves are dropped and blanks at the ends. Of each event the time of its last occurrence is kept.", "quantifier": "all histories of calls with any arguments, all levels of messages, all loggers of the package, any handlers that the program has", "why_tests_cant": "A message that is shown twice, or not at all, shows only after particular sequences of calls, some of which fail; tests make one or two calls", "anchors": ["src/calliope/util/logging.py:setup_root_logger", "src/calliope/util/logging.py:set_log_verbosity", "src/calliope/util/logging.py:log_time", "src/calliope/util/logging.py:LogWriter", "src/calliope/cli.py:_cli_start", "src/calliope/backend/pyomo_backend_model.py:_solve"]}
{"id": "C124", "title": "A supply technology with a store gives out what its source delivers, less losses", "statement": "For a supply technology with a store, the balance is built for every carrier at every time step and for no other technology; it says that the level is what was left of the level before plus what the source delivers, less the outflow of the carrier with its losses. So over the horizon what is left is the initial level plus all that the source delivered, less all outflow and all that the store lost; if the store is cyclic, all that the source delivered is the outflow plus the losses. If the technology has several carriers, each of them has the same outflow: every carrier gets all of it, it is not shared between them.", "quantifier": "all models with any number of nodes, technologies, carriers and time steps, all data, all solutions of the constraint, all of `storage_loss`, `cyclic_storage` and lengths of time steps", "why_tests_cant": "Conservation over the horizon is a statement of a sum over any number of time steps; tests compare the text of one constraint with a stored one", "anchors": ["src/calliope/math/base.yaml:balance_supply_with_storage", "src/calliope/backend/parsing.py", "src/calliope/backend/expression_parser.py", "src/calliope/backend/helper_functions.py:Roll"]}
{"id": "C125", "title": "More math only cuts plans", "statement": "Take math, and the same math with more variables and global expressions whose names no string of the math has, more constraints, and more objectives, put in anywhere. If the problem with more can be built, so can the problem without, and the arrays with other names, the constraints and the objectives of the math are the same in both. The plans of the problem with more are the plans of the problem without for which the added constraints hold and the added variables are within bounds. So every value of an objective that plans attain with more is attained without: the best plan never gets better by adding constraints, and never worse by deactivating one. Added global expressions alone cut nothing. This is so for every extra math file on top of base mode that leaves the components of base mode as they are. If an added expression takes a name that stands in the math, a plan can appear that was none.", "quantifier": "all math with any number of components, all additions at any places of the lists, all inputs, all values of decisions, all extra math files whose names are new", "why_tests_cant": "No test compares the solutions of two problems, and a sample of models cannot show that no plan appears", "anchors": ["src/calliope/backend/backend_model.py:BackendModelGenerator.add_optimisation_components", "src/calliope/backend/backend_model.py:BackendModelGenerator._add_to_dataset", "src/calliope/preprocess/model_math.py:build_math", "src/calliope/math/base.yaml"]}
{"id": "C126", "title": "SPORES look for other plans", "statement": "The objective of SPORES mode is the sum over all nodes, technologies and carriers of flow capacity times score, and the same penalty on unmet demand and unused supply as in base mode. With capacities and scores that are not negative its first part is never negative, and it is zero exactly for the plans that have no capacity at any place with a score; more capacity never lowers it; without scores only the penalty is left. In a run from scratch with integer scoring, the score with which plan number m is looked for is 1000 times the number of plans found before that have significant capacity at that place, and zero for technologies that are not tracked. So the first part is zero exactly for those plans that use no tracked technology at a place where a plan found before has significant capacity.", "quantifier": "all models with SPORES math, all capacities and scores, all runs from scratch with integer scoring of any length, all solvers", "why_tests_cant": "Tests run three SPORES of one model with one solver; that the objective penalises exactly the places of all earlier plans is a statement about all plans and all histories", "anchors": ["src/calliope/math/spores.yaml:min_spores", "src/calliope/model.py:Model._solve_spores", "src/calliope/model.py:Model._spores_update_model"]}
{"id": "C127", "title": "A copy of a dictionary is a copy", "statement": "AttrDict(d) holds the data of d, with dictionaries and lists nested in any way, and every other object keeps its data meanwhile. d.copy() is an AttrDict with the data of d, and from then on the two are independent: whoever has only one of them may look into it, make new objects, and change in any way and any number of times every object that they can reach; the other one keeps its data. to_yaml(data) works on such a copy, so that writing data leaves it as it was.", "quantifier": "all nestings of dictionaries and lists, all heaps (objects may be shared), all histories of changes by whoever has one of the two dictionaries", "why_tests_cant": "Tests change one key of one copy. Independence is about all objects that can be reached and about all later changes", "anchors": ["src/calliope/attrdict.py:AttrDict.__init__", "src/calliope/attrdict.py:AttrDict.init_from_dict", "src/calliope/attrdict.py:AttrDict.copy", "src/calliope/attrdict.py:AttrDict.as_dict_nested", "src/calliope/io.py:to_yaml"]}
{"id": "C128", "title": "A model moved to other dates has the same plans", "statement": "Take a model and give its time steps other dates, and the days that typical days stand for as well, so that they stay different and in the same order, with the same inputs for the first, second, ... time step. Then the problem can be built exactly if it could before, with the same error otherwise; decisions are a plan exactly if they were one at the old dates; every objective has the same value; and best plans stay best plans. So it is for every math that does not name a date, read a number from one or group time steps by their date, but which may ask for the first or last time step, look back to earlier ones or look up a time step. The base, operate, SPORES, milp and storage_inter_cluster math are such.", "quantifier": "all models, all dates, all decisions, all math that does not name dates, and the five shipped maths", "why_tests_cant": "Tests use one or two years of data. That no constraint depends on a date is about all dates and all models", "anchors": ["src/calliope/backend/parsing.py:ParsedBackendComponent", "src/calliope/backend/helper_functions.py:Roll", "src/calliope/backend/helper_functions.py:GetValAtIndex", "src/calliope/backend/helper_functions.py:SelectFromLookupArrays", "src/calliope/math/base.yaml", "src/calliope/math/storage_inter_cluster.yaml"]}
{"id": "C129", "title": "Models for another version are noticed", "statement": "When a model is made or read, there is a warning if the running version of Calliope is not the version that the model was initialised with, and a warning if the version that the model was initialised with is not the version that its configuration asks for; a version may leave out parts at the end (0.7.1 is a 0.7). Otherwise there is no warning. A model made from a definition is initialised with the running version.", "quantifier": "all running versions, versions saved with models and versions in configurations", "why_tests_cant": "Tests compare one or two versions with the running one; that versions are told apart is about all texts", "anchors": ["src/calliope/model.py:Model._check_versions", "src/calliope/schemas/runtime_attrs_schema.py:CalliopeRuntime", "src/calliope/schemas/config_schema.py:Init"]}
