# Design: a Lean 4 model of calliope

## 1. What this is

`/verif/lean` holds a formal model of calliope (pinned commit, `/repo/src/calliope`) and machine-checked theorems about
it. `properties.jsonl` lists the properties in English, `MANIFEST.json` maps each property to the theorems that settle
it, `seeded/LOG.jsonl` records the wrong programs the theorems were tried against.

Layout of the Lean library (`lean/Verif/`):

* `Model/*.lean`: definitions only; each cites the file and lines of `/repo` it models and says what it simplifies.
* `Spec/*.lean`: small specifications used in theorem statements. They do not use the helper functions of the model;
  they speak of paths and leaves, of points (one label per dimension), of sums over labels, of histories of calls.
* `Proofs/*.lean`: helper lemmas.
* `Props/*.lean`: the property theorems (`C01_...`), each with `example`s that show a concrete case which meets the
  hypotheses. `Props/*Demo.lean` hold larger concrete models for the theorems about the math files.
* `Audit.lean`: prints the axioms of every theorem named in `MANIFEST.json` (generated).

How the pieces of the math model fit together. `Model/Grid.lean` are labelled arrays; `Model/Where.lean` evaluates
conditions, `Model/Expr.lean` expressions, `Model/Expand.lean` expands equations and `Model/Build.lean` joins them to
what the backend does when it adds a component. The components of the math files (`base.yaml`, `milp.yaml`,
`operate.yaml`, `spores.yaml`, `storage_inter_cluster.yaml`) are given as parsed forms in `Model/BaseMath.lean`,
`BaseLimits.lean`, `BaseCosts.lean`, `MilpMath.lean`, `InterCluster.lean`, `Variables.lean`, `Postprocessed.lean`,
`CheckList.lean`; `Props/BaseParse.lean`, `Props/MathParse.lean` and `Props/MathStrings.lean` check each form against
the tokens of the string in the file, by running the model of the parser. The theorems about flows, storage, costs and
so on (C61 to C65, C76 to C86) start from "the backend built this component from this definition without an error" and
"these numbers satisfy every item that was built", and end in an equation or inequality over sums of inputs and
decisions, for all networks, labels and numbers in an ordered field.

## 2. Trusted base

* Lean 4.33.0's kernel.
* Axioms: at most `propext`, `Classical.choice`, `Quot.sound`; section 6 lists them for each theorem. No axioms are
  added; there is no `sorry`, `native_decide` or `bv_decide`. `decide +kernel` is used for concrete cases only (the
  examples, the findings shown on a concrete model and the checks of parsed forms); it is evaluated by the kernel.
* The reading of the Python code. The model was written from the text of the code; the code was never run. External
  libraries (xarray, pandas, pydantic, pyparsing, pyomo, gurobipy, ruamel.yaml) are modelled by the behaviour their
  documentation states, restated at each use.
* The parsed forms of the math files were generated by a script from the text of the YAML files; the script is not
  trusted for the strings (they are checked by the parser model, see above), but for taking the right string.
* Floating point is modelled by exact numbers (`Int`, `Rat` or an ordered field), NaN by `Option.none`. Rounding is
  outside the model.


## 3. Plan per property

For each property: the Lean modules that model the code (`lean/Verif/Model/`), and how it is proved. The status and the exact theorem names are in `MANIFEST.json`; what is missing or false is in section 4.

| Id | Property | Model | How it is proved | Status |
|----|----------|-------|------------------|--------|
| C01 | Setting a dotted key can be read back and disturbs nothing else | AttrDict | induction on key paths and trees; the specification is the partial map from paths to leaves | partial |
| C02 | Overriding union: the other dictionary wins, everything unrelated survives | AttrDict | induction on the list of leaves of the other dictionary; counterexample outside the condition | partial |
| C03 | Non-overriding union never loses data silently | AttrDict | as C02, with the error condition as an equivalence | partial |
| C04 | Flat and nested views of a dictionary are the same data | AttrDict | structural induction on trees; round trip | proved |
| C05 | Deleting a key removes it, prunes emptied parents and nothing else | AttrDict | induction on key paths | proved |
| C06 | _REPLACE_ substitutes a whole sub-dictionary | AttrDict | induction on trees | proved |
| C07 | Model definition priority | ModelDefinition | composition of unions; from C02 | partial |
| C08 | override_dict keeps its priority when it uses _REPLACE_ | ModelDefinition, AttrDictHeap | run of the heap model as a counterexample; partial theorem on trees | partial |
| C09 | Scenario expansion collects exactly the reachable overrides | ModelDefinition | fuel independence; set equality with reachability; circular definitions never return | proved |
| C10 | Combining the overrides of a scenario does not depend on their order | ModelDefinition | invariance under permutations when paths are unrelated; counterexample otherwise | partial |
| C11 | Template inheritance: the closest definition wins | ModelDefinition | induction on the chain of templates | partial |
| C12 | Circular templates are always rejected and resolution always ends | ModelDefinition | termination measure: names not on the stack | proved |
| C13 | No template call survives resolution | ModelDefinition | structural induction; counterexample for nested calls | partial |
| C14 | Template results do not depend on the order templates are written in | AttrDictHeap | run of the heap model as a counterexample; partial theorem on trees | partial |
| C15 | A YAML file overrides what it imports | Imports | induction on the imports; from C02 and C03 | partial |
| C16 | Math files are applied in order, last one wins | Imports | induction on the priority list | partial |
| C17 | An accepted math definition has no ambiguous names | MathSchema | list reasoning | proved |
| C18 | Inactive math can never reach the optimisation problem | MathSchema, Registry | list reasoning; invariant of building | partial |
| C19 | Configuration update changes what is named and nothing else | Config | induction on trees of settings, with validation as a parameter | proved |
| C20 | Unique-list validation accepts exactly the lists without repeats | Config | list reasoning; counterexample | partial |
| C21 | Model attributes survive saving to NetCDF and loading | Serialise | round trip by cases on attribute values; counterexamples | partial |
| C22 | Saving does not change the model in memory | Serialise | state machine with every failure point | partial |
| C23 | Timestep resolution and weights reproduce the time axis | Time | induction on the time axis | proved |
| C24 | Resampling by sum conserves totals | Time | induction on the time axis and the grid; exchange of sums | proved |
| C25 | Clustering accounts for every day exactly once | Time | counting over days; counterexamples | partial |
| C26 | Subsetting a dimension keeps exactly the requested range | Time | list reasoning on sorted axes | partial |
| C27 | Operate mode: windows cover the horizon exactly once | Operate | arithmetic on windows; counterexamples | partial |
| C28 | Operate mode: storage is handed over between windows | Operate | induction on windows with an abstract solver | partial |
| C29 | Build/solve life cycle is guarded | Lifecycle | invariant over all histories of calls with failures | partial |
| C30 | Zeroing threshold only removes noise | Spores | case analysis | partial |
| C31 | SPORES mode explores the requested number of alternatives | Spores | induction on the number of SPORES, for every sequence of solver outcomes | partial |
| C32 | A backend component name identifies one object | Registry | invariant over histories of additions and deletions | partial |
| C33 | Components are built in a deterministic, dependency-friendly order | Registry | sorting lemma | proved |
| C34 | At most one equation applies to any index item | Equations | induction on equations | proved |
| C35 | Updating an input is equivalent to rebuilding with it | Update | induction over the build order, for every dependency graph | partial |
| C36 | Reference tracking is transitive | Update | reachability in the graph of references | partial |
| C37 | Exactly one objective is active | SolverObjects | invariant over histories | proved |
| C38 | Variable bound updates respect parameters and leave NaN entries alone | SolverObjects | case analysis; counterexample | partial |
| C39 | Fixing and unfixing variables is an inverse pair | SolverObjects | case analysis per backend | partial |
| C40 | Where strings evaluate item by item as Boolean formulas | Where, Grid | structural induction on conditions; coordinate-wise semantics of broadcasting | partial |
| C41 | AND binds tighter than OR in where strings | Infix | induction on token lists; exact condition for the conventional reading | partial |
| C42 | Arithmetic strings evaluate with conventional precedence | Infix, Arith | induction on token lists | partial |
| C43 | Parsing inverts printing | Infix | round trip by structural induction | proved |
| C44 | Sub-expression and slice expansion is the full product | Expand | induction on lists; product of choices | proved |
| C45 | A component exists exactly where its foreach, definition matrix and where say | Where, Equations, Build | reduction of masks; exact description; counterexample | partial |
| C46 | sum helper adds present data only | Expr | induction on labels | proved |
| C47 | roll is a cyclic shift | Expr | modular arithmetic | proved |
| C48 | sum_next_n adds the documented window | Expr | modular arithmetic; counterexample | partial |
| C49 | group_sum conserves totals | Expr | exchange of sums | proved |
| C50 | select_from_lookup_arrays picks the looked-up item | Expr | case analysis; counterexample | partial |
| C51 | Documented math states what is built | Arith, WhereText, Infix | structural induction: the printed text is read back with the computed value; counterexamples | partial |
| C52 | Deactivated items vanish completely | ModelData | list reasoning on merged data | partial |
| C53 | Node-level technology settings override technology-level ones | ModelData | case analysis on where a value is given | proved |
| C54 | Transmission links connect their two ends | ModelData | case analysis on links | proved |
| C55 | Later data wins and gaps are filled from earlier data | ModelData | induction on the history of data | proved |
| C56 | Cleaning removes exactly the undefined members | Clean | Boolean reasoning on masks | proved |
| C57 | Removing nodes leaves no link hanging | Clean | Boolean reasoning on masks; counterexample | partial |
| C58 | Every technology has a colour and user colours are kept | Clean | list reasoning | proved |
| C59 | Generated run scripts launch every scenario exactly once | Runs, Text | text written is read by a model of the shell; digits of numbers | proved |
| C60 | Generated scenarios are the full product of override groups | Runs | list product | proved |
| C61 | The storage balance has exactly one previous-step rule per timestep | BaseMath, Build | exhaustion of the conditions at every point | proved |
| C62 | Storage energy is conserved over the horizon | BaseMath, Build | telescoping sum over time steps | proved |
| C63 | Energy balance over the whole system | BaseMath, Build | exchange of sums over nodes, technologies and carriers | proved |
| C64 | Annualised investment cost recovers the investment | BaseMath, Build | field algebra; geometric series | partial |
| C65 | Total generation weights all of its terms | BaseMath, Build | sums; exact difference to the documented value | partial |
| C66 | Operate mode solves every window with its own input data | Operate | induction on windows | partial |
| C67 | A SPORES run does not depend on earlier runs | Spores | state comparison over histories | partial |
| C68 | Expressions mean what they say, item by item | Expr, Grid | structural induction: evaluation of arrays against a pointwise semantics | partial |
| C69 | Every reference in an equation is resolved | Expand, Expr | structural induction; counterexamples | partial |
| C70 | No expression or constraint is built from missing values | Build, Expr | structural induction | partial |
| C71 | A component is built exactly where its definition says, with the value it says | Build, Expr, Expand, Where | joins C40, C44, C45 and C68 | proved |
| C72 | Links get the distance between their nodes | Clean | case analysis | proved |
| C73 | A data table means what its cells say | Tables | list reasoning on labels; equivalence with the cells of the frame | proved |
| C74 | Technologies, nodes and lookups follow from the data tables | Tables | list reasoning | proved |
| C75 | YAML and data tables together define the model | InitTables, ModelData | induction on the sequence of tables | partial |
| C76 | Storage between clusters stays within its capacity on every day | InterCluster, Build | linear arithmetic from four constraints | proved |
| C77 | Storage between clusters conserves energy | InterCluster, Build | telescoping sums over dates and hours | partial |
| C78 | Flows and storage stay within capacities | BaseLimits, MilpMath, Variables, Build | linear arithmetic from the constraints built; feasible model as a counterexample | partial |
| C79 | Decision variables exist exactly for their items and keep to their bounds | Variables, Where | pointwise reading of masks and bounds | proved |
| C80 | Asynchronous flow | MilpMath, Variables, Build | case analysis on the switch | proved |
| C81 | The cost of a model is what its prices say | BaseCosts, Build | sums over labels | partial |
| C82 | SPORES runs stay within the allowed extra cost | BaseCosts, Build | equivalence of the constraint with the inequality | proved |
| C83 | Integer units limit capacities | MilpMath, Variables, Build | linear arithmetic; feasible model as a counterexample | partial |
| C84 | Demand is met and sources are not overused | BaseLimits, BaseMath, Build | equivalence of each constraint with its claim; feasible model as a counterexample | partial |
| C85 | Flows ramp no faster than allowed | BaseLimits, Build | induction on the number of time steps | proved |
| C86 | Postprocessed results mean what their names say | Postprocessed, BaseMath, Build | field algebra and bounds from C78 and C84; concrete models for the findings | partial |
| C87 | Checks of the input data | Checks, CheckList, Where | equivalence over all lists of checks; reading of each condition | partial |
| C88 | Defaults | Defaults, Clean, ModelData | case analysis; concrete case | partial |
| C89 | Capacities keep to the rules given | BaseLimits, Variables, Build | equivalence of each constraint with its claim; linear arithmetic | partial |
| C90 | Results hold what was found, and the shadow prices that were asked for | Results, Operate | induction on histories and windows; dictionary reasoning | partial |
| C91 | A piecewise constraint ties two expressions by the given points | Piecewise, Build | evaluation of the mask and expressions; induction on the list of breakpoints | partial |
| C92 | Running a model from the command line does what its options say | Cli, Config, Dict | case analysis over the steps of the command | partial |
| C93 | A model saved to NetCDF and read back is the same model, whenever saving stops | SaveLoad, Clean, Imports | idempotence of every cleaning step on inputs with nothing left to do; case analysis over the writes | partial |
| C94 | CSV files hold the inputs and results, all of them and nothing else | Csv, Grid, Clean | induction over dimensions (rows) and over the list of files | proved |
| C95 | What purchases cost, and what counts as cost in operate mode | BaseCosts (costInvestmentPurchase, costInvestmentMilp, costOperate) | from the reading of where strings and equations (C71), as for C81 | partial |
| C96 | The solver works on the components that the backend holds, and on nothing else | SolverProblem | invariants over histories: the lists of the instance against the dataset (Pyomo), unique objects that belong to one component (Gurobi) | partial |
| C97 | SPORES saved one by one are not lost, wherever a run stops | SporeFiles, Spores | induction over the calls of a run with increasing numbers; every prefix of the effects is a crash point | partial |
| C98 | Verbose names say which object they belong to | Names, Runs | invariant over histories; a text without the separator is determined by the text up to the first separator; the regular expression matches only the index that Pyomo appends | partial |
| C99 | The math documentation describes the problem | MathDoc | invariant over the build: the dataset and the strings in terms of the definitions; sorting by insertion | partial |
| C100 | Results are the values of the solution | Readback | induction over the items and components; evaluation of an object against the sum it stands for | partial |
| C101 | Math strings mean what they spell | Grammar | soundness and completeness of the recursive descent with fuel against an inductive grammar; unique readability of the lexer | proved |
| C102 | Where strings mean what they spell | WhereGrammar | soundness and completeness of the recursive descent with fuel against an inductive grammar; brackets are matched to show that a comparison never takes part of a bracketed condition | proved |
| C103 | The math files mean the modelled math, whatever is added | MathText, MathFiles | Evaluation by the kernel for the shipped files; congruence of the grammars of C101 and C102 in the names used, and sublists through union and sorting, for extra math | proved |
| C104 | Math that passes validation can be built | MathText (validates, builds, accepted) | equivalence of the checks with the grammars by C101 and C102; congruence in the names used; evaluation by the kernel for the shipped files | proved |
| C105 | The documentation gives every array the indices with which it is evaluated | LatexIndex (printed, update, Text.text) | denotation of the text by recursion; update of indices as substitution (induction on the text), induction on the expression with C68 | partial |
| C106 | Documented conditions say where they hold | LatexWhere (atom, Atom.text) | reading of the text at an item; equivalence with the item-by-item meaning of C40; induction on the condition | partial |
| C107 | Data table definitions that pass validation can be loaded | TableSchema (validate), Tables (load) | case analysis of the checks; exact acceptance of loading (C73); construction of a table of one cell | partial |
| C108 | A model that is built again is the model that was solved | Session (Model.build, Model.solve, Backend.add, delete, update) | invariants by induction over histories: math of the model within that of the backend, dataset determined by the math | partial |
| C109 | A name that the schema accepts can be used in math strings | AttrName (attrStr), Grammar, WhereGrammar | induction on the writing of a string; exact reading (C101, C102) | partial |
| C110 | Input data definitions that pass validation can be loaded | DataSchema (validate, validateNode), ModelData (prepare) | case analysis of the checks; injectivity of tuples | partial |
| C111 | A change of data reaches only components that use it | Assemble (assemble), with Build, Expr, Where, Expand and Variables | structural induction on expressions and conditions; induction on the order in which components are added | proved |
| C112 | Constraints restrict decisions | Assemble (assemble), MathFiles, MathText | evaluation of the shipped files in the kernel; C111 for all data and decisions | partial |
| C113 | The order of components does not matter, or it is an error | Assemble (assemble, addAll), MathText (ordered) | the state after adding components is the one in which each is as it would be made at the end; induction along the second order; evaluation of the shipped files in the kernel | proved |
| C114 | A plan at fine time resolution, added up over coarser time steps, is a plan of the resampled model at the same cost | Coarse (resampled, methodOf), BaseMath, BaseLimits, BaseCosts, Variables | each constraint is read at an interval and at its time steps (C61-C63, C78-C85) and summed over the interval; storage by induction along the time steps of the interval | proved |
| C115 | What is written in the documented syntax is read back as exactly that | MathText, Grammar, WhereGrammar | induction on the expression, with the rest of the text after it as a parameter | proved |
| C116 | Of math files applied one over the other, the last that says something counts, and nothing else is lost or gained | MathText (File, Raw, merge, buildMath) | induction on the list of files from its end; names by induction on the fold | proved |
| C117 | The shipped math makes linear problems: a mixture of two plans is a plan at the mixed cost | Assemble, Build, Expr, Where, MathFiles | a relation between the arrays of three problems, kept by every helper function and operator, by structural induction on expressions and along the components; which math is linear is computed by the kernel | proved |
| C118 | A model in other units of energy, cost and area has the same plans | Assemble, Build, Expr, Where, MathFiles | a relation between the arrays of the two problems, kept by every helper function, operator and condition, by structural induction on expressions and along the components; that the units of the shipped math are consistent is computed by the kernel | proved |
| C119 | Looser limits and lower prices never make the best plan worse | Assemble, Build, Expr, Where, MathFiles | a relation between the arrays of the two problems, kept by every helper function and operator, by structural induction on expressions and along the components; that the shipped math has the shape is computed by the kernel | proved |
| C120 | The names and the order of nodes, technologies, carriers and cost classes do not matter | Assemble, Build, Expr, Where, MathFiles | a relation between arrays under different names, kept by every helper function and operator, by structural induction on expressions and along the components; that the shipped math names no label is computed by the kernel | proved |
| C121 | Typical time steps with weights stand for all time steps they are like | Assemble, Build, Expr, Where, MathFiles | a relation between arrays that do not depend on weights, and one between arrays in proportion to them, kept by every operator and sum by structural induction; sums over steps are regrouped by typical step; that the shipped math is that of single steps is computed by the kernel | proved |
| C122 | Typical time steps give the best plan of all time steps they stand for | Assemble, Build, Expr, Where, MathFiles | a relation "each cell is the weighted average of the cells it stands for" kept by every operator of linear math, by structural induction; limits and constraints are convex, so that averages keep them; the converse is C121 | proved |
| C123 | Messages are shown once, from the level that was asked for, whatever was asked for before | Logging | an invariant of the loggers kept by every call, accepted or rejected, by induction over the history | proved |
| C124 | A supply technology with a store gives out what its source delivers, less losses | BaseMath, Build, Expr, Where | as C62: the rule for the step before is unique, the balances of all steps are added up by induction | proved |
| C125 | More math only cuts plans | Assemble, MathText, MathFiles | the state with more differs from the state without in new arrays only (frame of C111), by induction over the list of components with the additions | proved |
| C126 | SPORES look for other plans | BaseCosts, Spores | evaluation of the parsed objective (C56), induction over the calls of a run with the step theorem of C31 | proved |
| C127 | A copy of a dictionary is a copy | Copying | objects in a heap; induction on data with an invariant: objects from the old end of the heap on refer to objects from there on; induction over what a client does | partial |
| C128 | A model moved to other dates has the same plans | Rename | the renaming of C120 with dimensions that keep their order; a Boolean check of each component, by induction on expressions and conditions | proved |
| C129 | Models for another version are noticed | Versions | texts of versions as parts joined by dots; induction on the parts | partial |

Every property in `properties.jsonl` could be expressed in the model; none is `not_applicable`. Not expressible, and so not listed as properties: whether a solver (HiGHS, CBC, Gurobi) finds an optimum, what the file system does, wording and appearance of logs and of the command line, numerical rounding.

## 4. Where the code does not do what the property says

A property with status `partial` keeps its full statement in `properties.jsonl`. Where the code makes it false, this is proved: as a general theorem that says what happens instead, or as a run of the model on a concrete case. The cases for which the property does hold are in theorems with the suffix `_partial` or in theorems for its other clauses.

* **C01** (partial). Reading, set-then-get and the exact error condition hold for all dictionaries. The frame condition (other keys unchanged) holds when no scalar lies on the path; it is false of the code otherwise, and C01_frame_fails / C01_set_wipes_siblings prove that.
* **C02** (partial). Holds when the override writes below no scalar of the base; C02_union_loses_data shows the code dropping unrelated data outside that case.
* **C03** (partial). Repeated leaf keys always raise. Nothing is lost under the fitting condition; without it the code silently loses values although overriding was not allowed (C03_union_silently_loses).
* **C07** (partial). Under the conditions that make union lossless (C02).
* **C08** (partial). False of the code when the scenario touches a replaced key: C08_replacement_overridden runs the heap model. The partial theorem covers scenarios silent on replaced keys.
* **C09** (proved). A circular scenario definition never returns (in Python: RecursionError), proved as such.
* **C10** (partial). Order independence holds when the override paths are unrelated; C10_order_matters is the counterexample otherwise (two overrides, one below a scalar of the other).
* **C11** (partial). Under the conditions that make union lossless (C02) and for unshared template data (see C14_order_matters).
* **C13** (partial). A template call nested inside a template body is not resolved by the code; C13_nested_call_survives proves that.
* **C14** (partial). False of the code when a template holds an empty dictionary (object sharing): C14_order_matters runs the heap model. The partial theorem is at value level.
* **C15** (partial). Under the conditions that make union lossless (C02/C03). The allow_override flag is not passed to nested imports (C15_override_not_passed_on), and outside the fitting condition the importing file can lose a value (C15_importer_loses_value).
* **C16** (partial). Leaf by leaf the last math dictionary in priority order that defines it wins, under the condition that makes union lossless (C02).
* **C18** (partial). Name level (which names expressions and where strings may use) and build level (only active components get solver objects). A deactivated variable still blocks an active constraint of its name, and a deactivated lookup hides a parameter.
* **C19** (proved). pydantic validation is a parameter of the model
* **C20** (partial). lists that mix strings and lists are compared after tuple(), where the property fails
* **C21** (partial). fails for coordinate attributes, empty lists and dictionaries with an import entry
* **C22** (partial). fails when an attribute cannot be serialised
* **C24** (proved). The grid of intervals is a parameter (pandas resampling rule), any strictly increasing grid starting at or before the data.
* **C25** (partial). Holds when every day is mapped, representatives represent themselves; the other theorems show the failures when that is not so.
* **C26** (partial). A subset that falls between two timesteps is accepted and gives an empty axis (C26_empty_subset_accepted).
* **C27** (partial). Holds for horizon >= window and at least two windows; both failures are proved.
* **C28** (partial). For storage with positive capacity and windows that solve.
* **C29** (partial). Guards and histories are proved for all states; a failed forced rebuild leaves a built model on an incomplete backend (C29_failed_rebuild).
* **C30** (partial). Holds for optimal or feasible runs; joined termination conditions skip the threshold.
* **C31** (partial). Results, order, stopping and the scores of every method are proved for all solver histories; with the random and evolving-average methods scores do not behave monotonically as the property says, and a restart with the evolving average is not equivalent to an uninterrupted run.
* **C32** (partial). One group per name holds for histories without a failed add; a failed add under another group leaves an empty solver list behind (C32_clash_leaves_list), two groups can then hold the name and a late refusal leaves its objects.
* **C35** (partial). The first update after a build is proved equivalent to a rebuild for all dependency graphs; histories of updates under the conditions of C35_history_partial. Outside them the property is false of the code; each failure is proved (C35_in_place_where, C35_stale_after_reorder, C35_hidden_read, C35_update_hides_error, C35_pyomo_lookup, C35_after_delete).
* **C36** (partial). Exact for every graph as far as the search goes, and for the dependents on a new backend and over histories with constant read sets; stale references make later rebuilds larger than needed (C36_stale_reference).
* **C37** (proved). A failing set_objective leaves no objective active (C37_failed_set_leaves_none); with Gurobi the configuration is not updated (C37_gurobi_config_stale), and a deleted objective stays in the solver model (C37_gurobi_deleted_stays).
* **C38** (partial). False of the code when min may be changed and max is refused: min has been changed (C38_min_changed_on_refusal).
* **C39** (partial). Proved in full for Pyomo; with Gurobi unfixing always raises (C39_gurobi_one_way).
* **C40** (partial). Proved for all conditions, nestings and arrays. False of the code: a lookup with a default that is nowhere given counts as given everywhere, and as missing once it is given for another item (C40_absent_lookup).
* **C41** (partial). False of the code: AND and OR are one level read from left to right. C41_exact: the reading is conventional if and only if no AND comes after an OR.
* **C42** (partial). False of the code: a sign binds tighter than a power and powers group to the left. Proved for texts without those two patterns.
* **C43** (proved). On tokens: spelling and white space are not modelled.
* **C44** (proved). For references found by the parser; see C69 for those it misses.
* **C45** (partial). C45_exact says exactly where a component is built. False of the code as stated: the component condition and the equation condition are reduced to the foreach dimensions separately, so an item is built although no model item meets both (C45_not_joint).
* **C46** (proved). About the value of the argument as the helper receives it; see C68 for operands masked beforehand.
* **C48** (partial). False of the code: N items are added where the documentation prints N+1 (C48_printed); a negative N wraps around (C48_negative).
* **C50** (partial). False of the code: a label outside the dimension gives a missing value unless a lookup array has no match at all (C50_raises, C50_outside).
* **C51** (partial). The LaTeX text has the computed value for printable expressions and conditions; each failure of the code is proved.
* **C52** (partial). Proved in full for nodes. A deactivated technology vanishes when no active node has other settings for it; otherwise building may fail (C52_settings_left, C52_not_erased). C52_origin: no value ever comes from an inactive item.
* **C53** (proved). For inputs that are built; C53_indexed_over_single and C53_carrier_at_node say which settings at nodes are refused.
* **C54** (proved). For links between two different nodes; C54_loop is about a link from a node to itself.
* **C56** (proved). Cleaning again needs at least one defined combination (otherwise the carrier inputs are gone and it raises).
* **C57** (partial). No link is left hanging (C57_two_nodes), and links with the same carriers at both ends are kept. False of the code for one-way links with different carriers at their ends, which any selection removes (C57_other_carriers).
* **C59** (proved). Names are words the shell takes as they stand; extra options hold no line break or semicolon. A trailing semicolon gives an empty scenario (C59_empty_scenario).
* **C64** (partial). Proved for interest rates that are missing, zero or positive. False of the code otherwise: with a negative rate no case applies and the investment is free (C64_negative); with an infinite rate two cases apply and building fails (C64_infinite).
* **C65** (partial). False of the code: outflow is not weighted and export is counted twice (C65_error gives the exact difference, C65_weights a case).
* **C66** (partial). Holds for gap-free parameters; gaps keep the value of an earlier window and lookups are not updated, both proved.
* **C67** (partial). Holds for a model whose cost limit is still unset; a second run keeps the first run's cost limit (C67_stale_budget).
* **C68** (partial). C68_meaning gives the exact pointwise meaning with masking of operands for every expression; independence of the condition holds when nothing is combined along a foreach dimension after an operator, and is false of the code otherwise (C68_masked_sum).
* **C69** (partial). False of the code: a reference under a leading sign of one side of a comparison, or a slice under one in a sub-expression, is not found.
* **C70** (partial). Proved for expressions and objectives, and for the dimensions and items of constraints; missing values in the sides of a constraint are not detected (C70_comparison_unchecked).
* **C71** (proved). Conditions are reduced to the foreach dimensions separately (see C45_not_joint); the value is for expressions that combine nothing along a foreach dimension after an operator (see C68_masked_sum).
* **C72** (proved). The distance between two nodes is any function; conversion of units is part of it.
* **C73** (proved). For tables whose definition names all dimensions (an axis without dimensions has a single label).
* **C74** (proved). Finding: the value in a lookup table is not looked at, so a cell that says false counts as given (C74_false_counts).
* **C75** (partial). False in the last part: if YAML deactivates a technology for which a table has a value at a node, building raises a KeyError instead (C75_deactivated). All other parts are proved; C75_sound carries C52 to C55 over to the definition that results.
* **C76** (proved). C76_hours: what is left of the starting level at any hour of the day meets the hypothesis of C76_within.
* **C77** (partial). Holds within days, from day to day of cyclic storage and over the whole period. False of the code for storage that is not cyclic: the initial energy appears again on every date of the first representative day (C77_initial_again), and the first date starts with the initial level as a fraction (C77_first_day). With an initial level for cyclic storage, the first date starts with more (C77_cyclic_initial).
* **C78** (partial). Holds for the base math, and with integer dispatch for units of a given size. False of the code for integer dispatch without flow_cap_per_unit: no constraint limits flows then (C78_unlimited), and all constraints and bounds of the math allow an outflow of 100 for a technology of capacity 1 with no unit running (C78_outflow_above_capacity).
* **C80** (proved). C80_cut: the flows of all carriers together are cut at bigM.
* **C81** (partial). Integer purchase costs are left out. False in one part: the fixed yearly price of a link is counted at both of its ends (C81_link_yearly); investment is counted once (C81_link).
* **C83** (partial). False in two parts: the smallest number of units at all nodes has no effect unless a largest number is given too (C83_total_ignored, C83_too_few), and the smallest capacity at all nodes is asked for once per unit bought (C83_total_capacity). The other parts are proved.
* **C84** (partial). The constraints are proved equivalent to what the property says of them. False of the code in the last part for supply of several carriers: each carrier gets all that is taken from the source, so that more comes out than goes in (C84_twice); C84_supply_partial is for one carrier.
* **C85** (proved). The limit is per time step whatever its length, although the unit of the rate is documented as per hour.
* **C86** (partial). Capacity factors and the unmet sum are proved in full. False of the code: levelised costs of several carriers count the costs once per carrier (C86_levelised_again, C86_total_again); curtailment is negative where the use asked for is above the source (C86_curtailment_given); total curtailment does not weight time steps and is negative where the source is given once for all time steps (C86_constant_source). The other cases of curtailment are proved.
* **C87** (partial). The first part is proved for every list of checks; the second is false of the code in two cases: a node with only one of latitude and longitude passes (C87_location_missed, C87_half_location), and so does an infinite initial level (C87_initial_infinite, C87_full_of_storage). Finding: the check that asks for inter-cluster storage stops clustered models without any storage (C87_clustered, C87_no_storage).
* **C88** (partial). False of the code for Boolean inputs: where one is given for any item, all items that leave it out have false (C88_false_beside), so that cyclic_storage, true by default, is off for them (C88_lost).
* **C89** (partial). Each rule is proved equivalent to what the property says of it. Two surprises: the limit on the capacity at all nodes together counts a link at both ends (C89_link_twice), and a least outflow given for a technology also holds for the carriers it only takes in, so that a conversion technology with it can take in nothing (C89_least_blocks).
* **C90** (partial). False of the code in six ways. In operate mode the shadow prices asked for are lost from the first window on that has another number of time steps (C90_operate_lost; there always is one when the horizon is longer than the window, C90_rebuild), and in all windows when the model is solved again (C90_operate_again). A solve by CBC after one by another solver has the shadow prices of the earlier solve (C90_stale, given that Pyomo leaves an inactive suffix alone). A global expression that has the name of a shadow price is overwritten (C90_overwritten). The warm start has no effect with Pyomo (C90_warmstart). With Gurobi, a value of LPWarmStart among the options is overwritten (C90_gurobi_warmstart). The rest is proved.
* **C91** (partial). False of the code if x is missing at one breakpoint and y at another: missing values are dropped separately, so that values of different breakpoints are paired (C91_mispaired). Proved if at each breakpoint both values are given or none. An inactive definition over breakpoints is an error too (C91_breakpoints_dimension).
* **C92** (partial). False of the code with --save_logs: the option is given to solve() as "solve.save_logs", which is the entry solve.solve.save_logs of the configuration, so that it is lost or makes the command fail (C92_logs_lost, C92_logs_asked); the same holds for the path of SPORES results. If the CSV directory exists, NetCDF is not saved either (C92_csv_first). Proved without those two options.
* **C93** (partial). False of the code in two ways. Every model that is read counts as solved, also one that was never solved (C93_always_solved). Inputs are cleaned again on reading: values that belong to nothing defined, as a subset of carriers can leave them, are removed then (C93_loses, Demo.C93_subset_loses). Inputs are proved to be kept if there is nothing left to clean (C93_inputs_partial), which holds of every new model if the time steps and subsets asked for keep it so (C93_fresh). What a group gives back is what was written to it: NetCDF encoding is not modelled here (attributes: see the property on serialisation).
* **C94** (proved). A file is written as a whole or not at all; how pandas formats numbers and quotes labels is not modelled.
* **C95** (partial). False of the code for a link with a price per distance but no price for its purchase: its purchases cost nothing (C95_unpriced, C95_distance_only). The partial theorems assume that such links have both prices.
* **C96** (partial). Proved in full for Pyomo. False of the code for Gurobi: deleting a piecewise constraint leaves it in the problem, so that after an update of its breakpoints the old curve holds next to the new one (C96_gurobi_piecewise), and what a failing call created stays (C96_gurobi_failed). C96_gurobi_partial assumes that neither happens; nothing is ever missing (C96_gurobi_held).
* **C97** (partial). False of the code for a solver that stops early with a solution, such as at a time limit: its results are loaded and kept in memory, but the file is not written (C97_unsaved, C97_time_limit). The partial theorems are for calls that end with optimal or feasible. Files of an earlier run with more SPORES stay in the folder (C97_stale).
* **C98** (partial). Proved for Pyomo if no label has a comma followed by a blank, or a backslash, and times are on whole minutes. Otherwise it is false of the code: two objects can have the same name (C98_ambiguous), and the times in the backend are cut to the minute (C98_seconds). With Gurobi, verbose_strings raises TypeError for objects with a number among their coordinates, such as those over clusters (C98_gurobi_number), and names are lost when inputs are updated (C98_gurobi_update).
* **C99** (partial). False of the code in several places, each proved. With include='all': deactivated variables and piecewise constraints are listed (C99_inactive_listed), and a component that exists nowhere in this model is listed without its equations (C99_all_silent, C99_unused_nowhere). A parameter with a one-letter name is not reported as used in the bounds of a variable whose name has that letter (C99_one_letter). With include='valid', inputs are reported as used in components that are not in the document (C99_valid_dangling). A deleted component stays in the lists of others (C99_deleted_still_named). A deactivated postprocessed expression hides a component of the same name (C99_hidden). Rendering to LaTeX is not modelled: a text is the list of its equations.
* **C100** (partial). Whenever results load, they are right (C100_values). False of the code otherwise: a single variable without a value in a single item of an expression makes the whole load raise ValueError, since the whole array then becomes texts (C100_one_unknown, C100_texts_for_all); with Gurobi, a product of variables in an expression or objective does so for every solution (C100_gurobi_products), while for linear problems the two interfaces agree (C100_gurobi_partial).
* **C101** (proved). The last sentence carries the condition because the code needs it: a string that names an inactive component is validated, and then is not accepted when the problem is built (C101_inactive), or, in the arguments of a helper function, is read as a text instead of the component (C101_inactive_text).
* **C102** (proved). The conditions of the last sentence are needed: C102_inactive_dimension and C102_two_groups show strings that pass the validation and are not accepted, or stand for something else, when the problem is built.
* **C103** (proved). The condition on names is needed (C103_same_name: with a parameter in place of a variable the math is accepted, and the conditions with that name change their meaning). YAML is read by tools/gen_math.py, not by the model; titles, units and defaults are left out; other combinations of modes and extra math are covered by C103_extra only where they leave the names that strings mention as they are.
* **C104** (proved). The condition on activity is needed (C104_inactive). The strings of postprocessed arrays and of checks are not validated at all (C104_not_validated, C104_unread): a math with a string there that cannot be read passes. References to sub-expressions and slices that are not defined, and piecewise constraints, are left out.
* **C105** (partial). False of the code in the cases listed, each proved: arrays rolled twice, labels looked up in a rolled array, sums over an absent dimension, what is rolled after being sliced by a lookup, sums below a lookup, groups that are labels of the grouped dimension, rolling along the group dimension, dimensions that share an iterator. Proved for all other expressions (Documented, Iterators). sum_next_n is left out. Parentheses and operators are the subject of C51. C105_latex_partial is about the string that the code writes with regular expressions, for names without braces, commas and backslashes.
* **C106** (partial). False of the code for Boolean inputs (printed as existing although false), infinite inputs, and defined() of several dimensions, which is printed as one condition for each dimension and evaluated for all together; each is proved. Proved for all other operands (Plain) and conditions made of them. And, or and not in the text are the subject of C51.
* **C107** (partial). False of the code both ways: definitions that drop a dimension that is not there or is on both axes, or that name no inputs, are accepted although no table loads by them, and one that renames a dimension that is then dropped is rejected although tables load by it. A selection along a dimension that is not there is accepted and has no effect. Proved: what is accepted, that every definition by which a table loads (renaming only to dimensions that are kept) is accepted, and which accepted definitions load some table. The pattern of names is not modelled.
* **C108** (partial). False of the code: the math never forgets or changes a definition, so deleted components return, a component that was deleted and added with another definition gets its old one back (also when an input it refers to is updated), a component that the math has as inactive is lost, and values of updated inputs and added parameters are lost; each is proved. Proved for histories that only add components under new names. Order of components, what definitions evaluate to and operate mode are not modelled here.
* **C109** (partial). False of the code: the pattern lets any first character pass but digits, underscores and `^`, and letters beyond ASCII; such a component cannot be referred to in any string, and strings are read as if it were not there. Components called `inf` are read as the number, inputs called `true` or `false` as truth values. Proved: which names are accepted, that strings mention accepted names only, which accepted names can be mentioned, and that these are read as the component or input unless they are one of those words.
* **C110** (partial). False of the code both ways: lengths of data and of entries are not checked by validation, nor that a label is given alone and again in a list; an entry with one label for two dimensions (a technology and a carrier of one name) is rejected although it could be loaded, a number beside a list ends in a TypeError, and a node with an integer and a float as coordinates is rejected. Proved: exactly what validation accepts, exactly what can be loaded, that accepted data with fitting lengths is loaded, and that technologies and nodes do not repeat their dimension.
* **C112** (partial). True of base, operate and SPORES mode, of milp and of storage_inter_cluster as extra math of base mode. False of operate mode with milp as extra math: operate.yaml deactivates four of the constraints of milp.yaml that limit capacities, but not flow_capacity_max_purchase_milp, storage_capacity_max_purchase_milp, flow_capacity_minimum, storage_capacity_minimum, area_use_minimum and source_capacity_minimum, in which only inputs stand once capacities are inputs. Proved: they are the same for all decisions, so a given capacity below its minimum makes every plan infeasible.
* **C114** (proved). Covered are the constraints of the base math on time steps, but balance_supply_with_storage and set_storage_initial. The labels of intervals are a parameter, and no interval is empty (pandas would make one for a gap in the data).
* **C115** (proved). Operands of binary operators are in parentheses in these texts; which operators bind more is C101. User-defined helper functions and lists of numbers as slices are left out.
* **C116** (proved). Validation of strings is C109 and C115; the types of fields are not looked at, and piecewise constraints are left out.
* **C117** (proved). Numbers are those of a field: rounding is not modelled. Dividing by zero gives no value. Piecewise constraints are left out (none is in the shipped math).
* **C118** (proved). Numbers are those of a field: rounding is not modelled. Units of time and distance are kept: `flow_out_eff_per_distance ** distance` and `storage_loss` are not proportional to them. Findings: storage_inter_cluster.yaml:103 sets the stored amount to the fraction `storage_initial`; `bigM` is documented to have no unit, but is a cost per energy in the objective (C118_penalty) and an amount of energy in milp.yaml; `cost_area_use` is documented with the unit area.
* **C119** (proved). Numbers are those of an ordered field: rounding is not modelled. Of `**` it is assumed that a power of a number of at least one with an exponent that is not negative is at least one (for the annuity factor). Limits that become given, infinite or change sign are not covered, since conditions see that. Efficiencies and fixed amounts (`sink_use_equals`, `source_use_equals`) stay: they are in equalities. That of `flow_cap_max` in milp.yaml holds by `operating_units <= purchased_units`, which this analysis does not use.
* **C120** (proved). Addition is that of a field, so its order does not matter: rounding is not modelled, and a floating-point sum can change with the order. Inputs that are limits of variables are given for dimensions of the variable. Time steps, date steps and clusters keep their names. Which of several best plans a solver returns is not modelled.
* **C121** (proved). Stated for a model of all steps and a model of typical steps with the data named in the specification (Spec/Typical); that `cluster` makes such data of days that are alike is not part of this theorem, see C25 for the weights and lookups. Both have the same other dimensions. Defaults of costs are missing or zero. Inputs that are limits of variables are given for dimensions of the variable. The converse, that steps that are alike have decisions that are alike in some best plan, is not claimed. Rounding is not modelled.
* **C122** (proved). Stated for a model of all steps and a model of typical steps with the data named in the specifications (Spec/Typical, Spec/Average), as C121. Decisions range over an ordered field; rounding of solvers is not modelled. Not for math that has integer decisions per step (proved to fail) nor for storage and ramping limits.
* **C123** (proved). The parts of Python's `logging` that Calliope uses are modelled: levels, inheritance of levels and of handlers. Formats, `logging.disable`, filters and loggers that the program has changed itself are not. Case of letters and blanks are those of ASCII.
* **C124** (proved). As C61 and C62 for the other technologies that store. Powers are any function; losses do not change with time.
* **C125** (proved). Plans are those of C117: values of decisions with which the problem can be built, that satisfy all constraints and bounds and are integer where they must be. Extra math that replaces a component is not an addition; C116 says what it becomes. No piecewise constraints.
* **C126** (proved). Significant is the threshold of C31: above score_threshold_factor times the largest capacity of tracked technologies with the same carrier. The solver is any function of the number of the call and of what the backend holds. The penalty is the one of C81.
* **C127** (partial). False of the code for lists of lists: copy() gives the copy the inner lists of the original (C127_shared_inner_list, on a three-object dictionary); proved for all data in which no list holds a list. AttrDict(d) itself, unlike copy(), has the lists of d (C127_attrdict_shares), and puts AttrDict objects in place of dictionaries in them. Keys are texts without dots.
* **C128** (proved). Inputs are given per time step, including timestep_resolution and timestep_weights; that these come from differences of dates is C23. Math that names a day depends on it (C128_named); math with group_datetime is not counted as free of dates.
* **C129** (partial). False of the code where the last part of the expected version is the beginning of the part at its place: texts are compared with startswith, so 0.7.12 passes for 0.7.1 without a warning (C129_unnoticed). The partial theorems say that nothing else goes unnoticed.

## 5. What is modelled and what is not

Collected from the citations in `lean/Verif/Model/*.lean` (files and lines of `/repo/src/calliope`). A function is listed as modelled if a definition cites lines of it; simplifications are stated at the head of each model file and at each definition.

### `attrdict.py`

* modelled in Config, Copying, Imports: `AttrDict.__init__`
* modelled in AttrDictHeap, Copying: `AttrDict.copy`, `AttrDict.__deepcopy__`
* modelled in AttrDict, AttrDictHeap, Cli, Copying: `AttrDict.init_from_dict`
* modelled in AttrDict, AttrDictHeap, Cli, Text: `AttrDict.set_key`
* modelled in AttrDict, AttrDictHeap, Text: `AttrDict.get_key`, `AttrDict.del_key`
* modelled in Copying: `AttrDict.as_dict`, `AttrDict.as_dict_nested`
* modelled in AttrDict: `AttrDict.as_dict_flat`
* modelled in AttrDict, AttrDictHeap: `AttrDict.keys_nested`, `AttrDict.union`
* not modelled: `__Missing.__nonzero__`

### `backend/__init__.py`

* not modelled: `get_model_backend`

### `backend/backend_model.py`

* modelled in Checks, Logging, Registry: `BackendModelGenerator.__init__`
* modelled in Build, MathDoc, Registry, Session: `BackendModelGenerator.add_lookup`
* modelled in Assemble, Build, MathDoc, Registry, Session, Variables: `BackendModelGenerator.add_parameter`, `BackendModelGenerator.add_variable`, `BackendModelGenerator.add_global_expression`
* modelled in Assemble, Build, MathDoc, Registry, Session: `BackendModelGenerator.add_constraint`
* modelled in Assemble, MathDoc, Registry, Session: `BackendModelGenerator.add_piecewise_constraint`, `BackendModelGenerator.add_objective`
* modelled in Build, MathDoc, MathText, Postprocessed, Where: `BackendModelGenerator._add_postprocessed`
* modelled in Build, Where: `BackendModelGenerator._eval_top_level_where`
* modelled in Build, Equations, Where: `BackendModelGenerator._eval_equations`
* modelled in Build, Equations: `BackendModelGenerator._raise_idx_overlap_error`
* modelled in Defaults, Grid, Registry, Session, Where: `BackendModelGenerator._add_inputs`
* modelled in Checks, Defaults, Grid, Session, Where: `BackendModelGenerator._check_inputs`
* modelled in Assemble, MathText, Registry, Session, Update: `BackendModelGenerator.add_optimisation_components`
* modelled in Registry, Session: `BackendModelGenerator.delete_component`
* modelled in MathDoc, Registry, Session: `BackendModelGenerator._load_inputs`
* modelled in Registry: `BackendModelGenerator._clean_arrays`
* modelled in MathText, Registry: `BackendModelGenerator._sorted_by_order`
* modelled in MathDoc, MathText, Postprocessed: `BackendModelGenerator.add_postprocessed_arrays`
* modelled in Assemble, MathDoc, Names, Registry, Session, SolverProblem, Update: `BackendModelGenerator._add_to_dataset`
* modelled in MathDoc, Registry, Update: `BackendModelGenerator._update_references`
* modelled in Piecewise, Readback: `BackendModelGenerator._apply_func`
* modelled in Registry, Session, SolverProblem: `BackendModelGenerator._raise_error_on_preexistence`
* modelled in Piecewise: `BackendModel.add_piecewise_constraint`
* modelled in Readback: `BackendModel.get_variable`, `BackendModel.get_variable_bounds`, `BackendModel.get_global_expression`, `BackendModel.get_objective`, `BackendModel._get_expression`
* modelled in Operate, Spores: `BackendModel.update_input`
* modelled in Names, Session, SolverProblem, Spores, Update: `BackendModel._update_input`
* modelled in Readback, Results: `BackendModel.load_results`
* modelled in Update: `BackendModel._find_all_references`
* modelled in Names, Session, Update: `BackendModel._rebuild_references`
* modelled in Variables: `BackendModel._get_variable_bound`
* modelled in Names: `BackendModel._datetime_as_string`
* modelled in Results: `ShadowPrices.get`, `ShadowPrices.activate`, `ShadowPrices.deactivate`, `ShadowPrices.is_active`, `ShadowPrices.available_constraints`, `ShadowPrices.tracked`, `ShadowPrices.track_constraints`
* not modelled: `validate_on_adding_component`, `SelectiveWrappingMeta.__new__`, `BackendModelGenerator._add_variable`, `BackendModelGenerator._add_global_expression`, `BackendModelGenerator._add_constraint`, `BackendModelGenerator._add_objective`, `BackendModelGenerator.set_objective`, `BackendModelGenerator.log`, `BackendModelGenerator._apply_func`, `BackendModelGenerator.constraints`, `BackendModelGenerator.piecewise_constraints`, `BackendModelGenerator.variables`, `BackendModelGenerator.parameters`, `BackendModelGenerator.lookups`, `BackendModelGenerator.global_expressions`, `BackendModelGenerator.objectives`, `BackendModelGenerator.postprocessed`, `BackendModel.__init__`, `BackendModel.get_lookup`, `BackendModel._to_piecewise_constraint`, `BackendModel.get_parameter`, `BackendModel.get_constraint`, `BackendModel.get_piecewise_constraint`, `BackendModel.update_variable_bounds`, `BackendModel.fix_variable`, `BackendModel.unfix_variable`, `BackendModel.verbose_strings`, `BackendModel.to_lp`, `BackendModel.has_integer_or_binary_variables`, `BackendModel._solve`, `BackendModel._get_component`

### `backend/eval_attrs.py`

* not modelled: `EvalAttrs`

### `backend/expression_parser.py`

* modelled in Arith, Infix: `EvalOperatorOperand.__init__`
* modelled in Arith: `EvalOperatorOperand.__repr__`, `EvalOperatorOperand._operator_operands`, `EvalOperatorOperand._skip_component_on_conditional`, `EvalOperatorOperand._operate`, `EvalNumber.__repr__`, `EvalNumber.as_math_string`, `EvalNumber.as_array`
* modelled in Arith, Expr: `EvalOperatorOperand._apply_where_array`, `EvalSubExpressions.__init__`, `EvalSubExpressions.__repr__`, `EvalSubExpressions._eval`, `EvalSubExpressions.as_array`, `EvalNumber.__init__`
* modelled in Arith, Expr, LatexIndex, Where, WhereText: `EvalOperatorOperand.as_math_string`
* modelled in Arith, Expr, Where: `EvalOperatorOperand.as_array`
* modelled in Arith, Expr, Infix: `EvalSignOp.__init__`, `EvalSignOp.__repr__`, `EvalSignOp._eval`, `EvalSignOp.as_math_string`, `EvalSignOp.as_array`
* modelled in Expr: `EvalComparisonOp.as_array`, `EvalFunction._eval`, `EvalFunction.as_math_string`, `EvalFunction.as_array`, `EvalSlicedComponent._eval`, `EvalSlicedComponent.as_math_string`, `EvalSlicedComponent.as_array`, `EvalIndexSlice.__init__`, `EvalIndexSlice.__repr__`, `EvalIndexSlice._eval`, `EvalIndexSlice.as_math_string`, `EvalUnslicedComponent.as_array`
* modelled in LatexIndex: `EvalSlicedComponent._replace_rule`, `EvalUnslicedComponent.as_math_string`
* modelled in Expr, LatexIndex: `EvalIndexSlice.as_array`
* modelled in Arith, Expr, LatexIndex: `EvalSubExpressions.as_math_string`
* modelled in Grammar, WhereGrammar: `helper_function_parser`
* modelled in Grammar: `sliced_param_or_var_parser`, `sub_expression_parser`, `unsliced_object_parser`, `evaluatable_identifier_parser`, `list_parser`, `equation_comparison_parser`, `generate_slice_parser`, `generate_equation_parser`
* modelled in Grammar, Where: `setup_base_parser_elements`
* modelled in Arith, Expr, Grammar, Infix: `arithmetic_parser`
* modelled in Expr, Grammar: `generate_sub_expression_parser`, `generate_arithmetic_parser`
* not modelled: `EvalString.__eq__`, `EvalString.__repr__`, `EvalString.error_msg`, `EvalArrayOrMath.as_math_string`, `EvalArrayOrMath.as_array`, `EvalArrayOrMath.eval`, `EvalToCallable.as_callable`, `EvalToCallable.eval`, `EvalComparisonOp.__init__`, `EvalComparisonOp.__repr__`, `EvalComparisonOp._eval`, `EvalComparisonOp.as_math_string`, `EvalFunction.__init__`, `EvalFunction.__repr__`, `EvalFunction._arg_eval`, `EvalFunction._eval`, `EvalHelperFuncName.__init__`, `EvalHelperFuncName.__repr__`, `EvalHelperFuncName.as_callable`, `EvalSlicedComponent.__init__`, `EvalSlicedComponent.__repr__`, `EvalSlicedComponent._eval`, `ListParser.__init__`, `ListParser.__repr__`, `ListParser.as_math_string`, `ListParser.as_array`, `EvalUnslicedComponent.__init__`, `EvalUnslicedComponent.__repr__`, `EvalGenericString.__init__`, `EvalGenericString.__repr__`, `EvalGenericString.as_math_string`, `EvalGenericString.as_array`
* The grammar of operands (names, numbers, slices, function arguments) is not modelled; the grammar of operators is, on tokens.

### `backend/gurobi_backend_model.py`

* modelled in SolverProblem: `GurobiBackendModel._add_variable`, `GurobiBackendModel._add_global_expression`, `GurobiBackendModel._add_constraint`, `GurobiBackendModel._del_gurobi_obj`
* modelled in SolverObjects: `GurobiBackendModel._add_objective`, `GurobiBackendModel.set_objective`, `GurobiBackendModel.fix_variable`, `GurobiBackendModel.unfix_variable`, `GurobiBackendModel._update_gurobi_variable`, `GurobiBackendModel._fix_gurobi_variable`
* modelled in Readback: `GurobiBackendModel.get_variable`, `GurobiBackendModel.get_variable_bounds`, `GurobiBackendModel._get_expression`, `GurobiBackendModel._from_gurobi_var`, `GurobiBackendModel._from_gurobi_expr`
* modelled in Results: `GurobiBackendModel._solve`
* modelled in Names: `GurobiBackendModel.verbose_strings`, `GurobiBackendModel.to_lp`
* modelled in Names, Session, SolverObjects, SolverProblem, Update: `GurobiBackendModel.delete_component`
* modelled in Names, Update: `GurobiBackendModel.update_input`
* modelled in SolverObjects, Update: `GurobiBackendModel.update_variable_bounds`
* modelled in Piecewise, SolverProblem: `GurobiBackendModel._to_piecewise_constraint`
* not modelled: `GurobiBackendModel.__init__`, `GurobiBackendModel.add_parameter`, `GurobiBackendModel.get_parameter`, `GurobiBackendModel.get_constraint`, `GurobiBackendModel.has_integer_or_binary_variables`, `GurobiBackendModel._from_gurobi_variable_bounds`, `GurobiShadowPrices.__init__`, `GurobiShadowPrices.get`, `GurobiShadowPrices.activate`, `GurobiShadowPrices.deactivate`, `GurobiShadowPrices.is_active`, `GurobiShadowPrices.available_constraints`, `GurobiShadowPrices._duals_from_gurobi_constraint`

### `backend/helper_functions.py`

* modelled in LatexIndex: `ParsingHelperFunction._update_iterator`, `ParsingHelperFunction._get_dims_from_iterators`, `ParsingHelperFunction._instr`, `ReduceCarrierDim.as_math_string`, `Roll.as_math_string`, `Where.as_math_string`, `GroupSum.as_math_string`, `GroupDatetime.as_math_string`
* modelled in LatexWhere, Where: `WhereAny.as_math_string`, `Defined.as_math_string`
* modelled in Where: `WhereAny.as_array`, `Defined.as_array`, `Defined._dims_to_remove`
* modelled in LatexWhere: `Defined._latex_substring`
* modelled in LatexIndex, Where: `Sum.as_math_string`
* modelled in Expr, MathText, Where: `Sum.as_array`, `GetValAtIndex.as_array`, `GetValAtIndex._mapping_to_dim_idx`
* modelled in MathText: `ReduceCarrierDim.as_array`
* modelled in Expr, LatexIndex: `SelectFromLookupArrays.as_math_string`, `SumNextN.as_math_string`
* modelled in Expr, MathText: `SelectFromLookupArrays.as_array`, `Roll.as_array`, `Where.as_array`, `GroupSum.as_array`, `GroupDatetime.as_array`
* modelled in Expr, LatexIndex, LatexWhere, MathText, Where: `GetValAtIndex.as_math_string`
* modelled in Expr, LatexIndex, MathText: `SumNextN.as_array`
* not modelled: `ParsingHelperFunction.__init__`, `ParsingHelperFunction.ALLOWED_IN`, `ParsingHelperFunction.NAME`, `ParsingHelperFunction.ignore_where`, `ParsingHelperFunction.as_math_string`, `ParsingHelperFunction.as_array`, `ParsingHelperFunction.__call__`, `ParsingHelperFunction.__init_subclass__`, `ParsingHelperFunction._to_str_list`, `ParsingHelperFunction._dim_iterator`, `Roll.ignore_where`

### `backend/latex_backend_model.py`

* modelled in MathDoc: `LatexBackendModel.add_parameter`, `LatexBackendModel.add_lookup`, `LatexBackendModel.add_constraint`, `LatexBackendModel.add_piecewise_constraint`, `LatexBackendModel.add_global_expression`, `LatexBackendModel.add_variable`, `LatexBackendModel.add_objective`, `LatexBackendModel._add_postprocessed`, `LatexBackendModel.postprocessed`, `LatexBackendModel.set_objective`, `LatexBackendModel._add_component_passthrough`, `LatexBackendModel.delete_component`, `LatexBackendModel.generate_math_doc`, `LatexBackendModel._eval_top_level_where`, `LatexBackendModel._eval_equations`, `LatexBackendModel._generate_math_string`
* modelled in LatexIndex, LatexWhere: `LatexBackendModel._dims_to_var_string`
* not modelled: `LatexBackendModel.__init__`, `LatexBackendModel._render`, `LatexBackendModel._get_variable_bounds_string`

### `backend/parsing.py`

* modelled in Expand: `ParsedBackendEquation.__init__`, `ParsedBackendEquation.find_sub_expressions`, `ParsedBackendEquation.find_slices`, `ParsedBackendEquation._find_items_in_expression`
* modelled in Expand, Where: `ParsedBackendEquation.add_expression_group_combination`, `ParsedBackendComponent.extend_equation_list_with_expression_group`
* modelled in Where: `ParsedBackendEquation.evaluate_where`, `ParsedBackendComponent.combine_definition_matrix_and_foreach`, `ParsedBackendComponent.generate_top_level_where_array`
* modelled in Where, WhereText: `ParsedBackendEquation.evaluate_where`
* modelled in Equations, Where: `ParsedBackendEquation.drop_dims_not_in_foreach`
* modelled in Build, Equations, Expr, MathText: `ParsedBackendEquation.evaluate_expression`, `ParsedBackendEquation.raise_error_on_where_expr_mismatch`
* modelled in Equations, MathText: `ParsedBackendEquation.log_not_added`
* modelled in Expand, MathText: `ParsedBackendComponent.__init__`, `ParsedBackendComponent.get_parsing_position`, `ParsedBackendComponent.reset_tracker`, `ParsedBackendComponent._init_tracker`, `ParsedBackendComponent.parse_top_level_where`
* modelled in Expand, Infix, MathText: `ParsedBackendComponent.parse_equations`
* modelled in Expand, Grammar, MathText: `ParsedBackendComponent._parse_string`
* modelled in Expand, MathText, WhereGrammar: `ParsedBackendComponent.parse_where_string`, `ParsedBackendComponent.generate_expression_list`
* not modelled: `ParsedBackendEquation.evaluate_expression`, `ParsedBackendComponent.raise_caught_errors`

### `backend/pyomo_backend_model.py`

* modelled in Registry, SolverProblem: `_create_backend_obj_adding_component`
* modelled in Registry: `SelectiveWrappingMeta.__new__`
* modelled in Registry, Results, SolverProblem: `PyomoBackendModel.__init__`
* modelled in Build, Registry: `PyomoBackendModel.add_parameter`
* modelled in Build, SolverProblem, Variables: `PyomoBackendModel._add_variable`
* modelled in Build, Equations, SolverProblem: `PyomoBackendModel._add_global_expression`, `PyomoBackendModel._add_constraint`
* modelled in BaseCosts, Build, SolverObjects: `PyomoBackendModel._add_objective`
* modelled in BaseCosts, SolverObjects: `PyomoBackendModel.set_objective`
* modelled in BaseCosts: `PyomoBackendModel.get_parameter`
* modelled in Readback: `PyomoBackendModel.get_constraint`, `PyomoBackendModel.get_variable`, `PyomoBackendModel.get_variable_bounds`, `PyomoBackendModel._get_expression`, `PyomoBackendModel._to_pyomo_variable`, `PyomoBackendModel._from_pyomo_expr`
* modelled in Readback, Results, SporeFiles: `PyomoBackendModel._solve`
* modelled in Names, Results: `PyomoBackendModel.verbose_strings`
* modelled in Names: `PyomoBackendModel.to_lp`, `CoordObj.__init__`, `CoordObj._update_name`, `CoordObj.calliope_coords`, `ObjParameter.__init__`, `ObjParameter.dtype`, `ObjParameter.getname`, `ObjVariable.__init__`, `ObjVariable.getname`, `ObjConstraint.__init__`, `ObjConstraint.getname`, `ObjPiecewiseConstraint.__init__`, `ObjPiecewiseConstraint.getname`
* modelled in Names, Registry, Session, SolverObjects, SolverProblem, Update: `PyomoBackendModel.delete_component`
* modelled in Operate, Update: `PyomoBackendModel.update_input`
* modelled in SolverObjects: `PyomoBackendModel.update_variable_bounds`, `PyomoBackendModel.fix_variable`, `PyomoBackendModel.unfix_variable`, `PyomoBackendModel._update_pyomo_param`, `PyomoBackendModel._fix_pyomo_variable`, `PyomoBackendModel._unfix_pyomo_variable`, `PyomoBackendModel._to_pyomo_constraint`
* modelled in Piecewise, SolverProblem: `PyomoBackendModel._to_piecewise_constraint`
* modelled in SolverProblem: `PyomoBackendModel._to_pyomo_param`
* modelled in Registry, SolverObjects: `PyomoBackendModel._update_pyomo_variable`
* modelled in Results: `PyomoShadowPrices.__init__`, `PyomoShadowPrices.get`, `PyomoShadowPrices.activate`, `PyomoShadowPrices.deactivate`, `PyomoShadowPrices.is_active`, `PyomoShadowPrices.available_constraints`, `PyomoShadowPrices._duals_from_pyomo_constraint`
* not modelled: `PyomoBackendModel.get_constraint`, `PyomoBackendModel.has_integer_or_binary_variables`, `PyomoBackendModel._from_pyomo_param`, `PyomoBackendModel._from_pyomo_constraint`, `PyomoBackendModel._from_pyomo_variable_bounds`

### `backend/where_parser.py`

* modelled in Infix, Where, WhereText: `EvalNot.as_math_string`, `EvalNot.as_array`, `EvalAndOr._skip_component_on_conditional`, `EvalAndOr._operate`, `EvalAndOr._apply_where_array`, `EvalAndOr.as_math_string`, `EvalAndOr.as_array`
* modelled in LatexWhere: `ConfigOptionParser.as_math_string`, `ResultArrayParser.as_math_string`, `InputArrayParser.as_math_string`, `DimensionArrayParser.as_math_string`, `ComparisonParser.as_math_string`, `SubsetParser.as_math_string`
* modelled in Where: `ConfigOptionParser.as_array`, `ResultArrayParser.as_array`, `InputArrayParser.as_array`, `DimensionArrayParser.as_array`, `ComparisonParser.as_array`
* modelled in WhereText: `BoolOperandParser.__init__`, `BoolOperandParser.__repr__`, `BoolOperandParser.as_math_string`, `BoolOperandParser.as_array`
* modelled in WhereGrammar: `data_var_parser`, `bool_parser`, `evaluatable_string_parser`, `subset_parser`
* modelled in Grammar, WhereGrammar: `config_option_parser`
* modelled in Where, WhereGrammar: `comparison_parser`, `where_parser`
* modelled in Grammar, Infix, MathText, Where, WhereGrammar: `generate_where_string_parser`
* not modelled: `ConfigOptionParser.__init__`, `ConfigOptionParser.__repr__`, `ResultArrayParser.__init__`, `ResultArrayParser.__repr__`, `InputArrayParser.__init__`, `InputArrayParser.__repr__`, `DimensionArrayParser.__init__`, `DimensionArrayParser.__repr__`, `ComparisonParser.__repr__`, `SubsetParser.__init__`, `SubsetParser.__repr__`, `SubsetParser._eval`, `SubsetParser.as_array`, `GenericStringParser.__init__`, `GenericStringParser.__repr__`, `GenericStringParser.eval`
* As for expressions: operators on tokens, operands as parsed forms.

### `cli.py`

* modelled in Cli: `format_exceptions`, `_run_setup_model`, `run`
* modelled in Logging: `_cli_start`
* modelled in Runs, Text: `generate_scenarios`
* not modelled: `print_end_time`, `_get_version`, `cli`, `new`, `generate_runs`

### `examples.py`

* not modelled: `national_scale`, `time_clustering`, `time_resampling`, `urban_scale`, `milp`, `operate`, `operate_milp`

### `exceptions.py`

* modelled in Checks: `print_warnings_and_raise_errors`
* not modelled: `ModelError`, `BackendError`, `ModelWarning`, `BackendWarning`, `warn`

### `io.py`

* modelled in SaveLoad, Serialise: `read_netcdf`
* modelled in Serialise: `_pop_serialised_list`, `_serialise`, `_deserialise`
* modelled in SaveLoad, Serialise, SporeFiles: `save_netcdf`
* modelled in Csv: `save_csv`
* modelled in Imports, Serialise: `read_rich_yaml`, `_resolve_yaml_imports`
* modelled in Imports: `_yaml_load`
* modelled in Copying: `to_yaml`
* not modelled: `load_config`

### `math/base.yaml`

* modelled in Coarse: `parameters.available_area`, `parameters.bigM`, `parameters.cost_flow_cap_per_distance`, `parameters.cost_flow_cap`, `parameters.cost_export`, `parameters.cost_interest_rate`, `parameters.cost_om_annual`, `parameters.cost_om_annual_investment_fraction`, `parameters.cost_flow_in`, `parameters.cost_source_use`, `parameters.cost_flow_out`, `parameters.cost_area_use`, `parameters.cost_source_cap`, `parameters.cost_storage_cap`, `parameters.cost_depreciation_rate`, `parameters.distance`, `parameters.export_max`, `parameters.export_min`, `parameters.flow_cap_per_storage_cap_min`, `parameters.flow_cap_per_storage_cap_max`, `parameters.flow_cap_max`, `parameters.flow_cap_max_systemwide`, `parameters.flow_cap_min`, `parameters.flow_cap_min_systemwide`, `parameters.flow_out_min_relative`, `parameters.flow_in_eff`, `parameters.flow_in_eff_per_distance`, `parameters.flow_out_eff`, `parameters.flow_out_eff_per_distance`, `parameters.flow_out_parasitic_eff`, `parameters.flow_ramping`, `parameters.lifetime`, `parameters.objective_cost_weights`, `parameters.sink_use_min`, `parameters.sink_use_max`, `parameters.sink_use_equals`, `parameters.source_eff`, `parameters.source_use_min`, `parameters.source_use_max`, `parameters.source_use_equals`, `parameters.source_cap_max`, `parameters.source_cap_min`, `parameters.storage_cap_max`, `parameters.storage_cap_min`, `parameters.storage_discharge_depth`, `parameters.storage_initial`, `parameters.storage_loss`, `parameters.timestep_resolution`, `parameters.timestep_weights`
* modelled in BaseLimits: `constraints.flow_capacity_per_storage_capacity_min`, `constraints.flow_capacity_per_storage_capacity_max`, `constraints.source_capacity_equals_flow_capacity`, `constraints.force_zero_area_use`, `constraints.area_use_per_flow_capacity`, `constraints.area_use_capacity_per_loc`, `constraints.flow_capacity_systemwide_max`, `constraints.source_max`, `constraints.storage_max`, `constraints.storage_discharge_depth_limit`, `constraints.balance_demand`, `constraints.balance_demand_min_use`, `constraints.balance_supply_no_storage`, `constraints.source_availability_supply`, `constraints.balance_supply_min_use`, `constraints.symmetric_transmission`, `constraints.export_balance`, `constraints.ramping_up`, `constraints.ramping_down`
* modelled in BaseLimits, MilpMath: `constraints.flow_capacity_systemwide_min`, `constraints.flow_out_max`, `constraints.flow_out_min`, `constraints.flow_in_max`
* modelled in BaseMath: `constraints.balance_conversion`, `constraints.system_balance`, `constraints.balance_supply_with_storage`, `constraints.balance_transmission`, `global_expressions.flow_out_inc_eff`, `global_expressions.flow_in_inc_eff`, `global_expressions.cost_investment_annualised`, `postprocessed.total_generation`
* modelled in BaseMath, InterCluster: `constraints.balance_storage`, `constraints.set_storage_initial`
* modelled in Variables: `variables.flow_cap`, `variables.link_flow_cap`, `variables.flow_out`, `variables.flow_in`, `variables.flow_export`, `variables.area_use`, `variables.source_use`, `variables.source_cap`, `variables.storage_cap`, `variables.storage`, `variables.unmet_demand`, `variables.unused_supply`
* modelled in BaseCosts: `objectives.min_cost_optimisation`, `global_expressions.cost_operation_variable`, `global_expressions.cost_investment_flow_cap`, `global_expressions.cost_investment_storage_cap`, `global_expressions.cost_investment_source_cap`, `global_expressions.cost_investment_area_use`, `global_expressions.cost_investment`, `global_expressions.cost_operation_fixed`, `global_expressions.cost`
* modelled in Postprocessed: `postprocessed.capacity_factor`, `postprocessed.systemwide_capacity_factor`, `postprocessed.systemwide_levelised_cost`, `postprocessed.total_levelised_cost`, `postprocessed.unmet_sum`, `postprocessed.curtailment`, `postprocessed.total_curtailment`
* modelled in CheckList: `checks.must_have_base`, `checks.distance_only_for_transmission`, `checks.unbounded_flow_cap_cost`, `checks.unbounded_storage_cap_cost`, `checks.unbounded_area_use_cost`, `checks.unbounded_source_use_cost`, `checks.finite_source_use`, `checks.all_or_nothing_lat_lon`, `checks.export_only_for_outflows`, `checks.storage_initial_max`, `checks.flow_in_for_supply_tech`, `checks.flow_out_for_demand_tech`, `checks.no_storage_discharge_depth_when_clustering`, `checks.cyclic_storage_needs_inter_cluster`
* not modelled: `dimensions.carriers`, `dimensions.costs`, `dimensions.nodes`, `dimensions.techs`, `dimensions.timesteps`, `dimensions.clusters`, `dimensions.datesteps`, `parameters.area_use_max`, `parameters.area_use_min`, `parameters.area_use_per_flow_cap`, `lookups.base_tech`, `lookups.carrier_in`, `lookups.carrier_out`, `lookups.carrier_export`, `lookups.cluster_first_timestep`, `lookups.definition_matrix`, `lookups.include_storage`, `lookups.cyclic_storage`, `lookups.sink_unit`, `lookups.source_unit`, `lookups.source_cap_equals_flow_cap`, `lookups.one_way`, `lookups.lookup_cluster_last_timestep`, `lookups.latitude`, `lookups.longitude`
* Dimensions, parameters and lookups have no formulas; their defaults and the conditions on them are given where components use them (`Spec/BaseMath.lean`, `Spec/Costs.lean`).

### `math/milp.yaml`

* modelled in Variables: `variables.purchased_units`, `variables.operating_units`, `variables.async_flow_switch`, `variables.available_flow_cap`, `variables.flow_cap`, `variables.area_use`, `variables.source_cap`, `variables.storage_cap`
* modelled in MilpMath: `constraints.unit_commitment_milp`, `constraints.flow_out_max_milp`, `constraints.flow_in_max_milp`, `constraints.flow_out_min_milp`, `constraints.storage_capacity_units_milp`, `constraints.flow_capacity_units_milp`, `constraints.flow_capacity_max_purchase_milp`, `constraints.storage_capacity_max_purchase_milp`, `constraints.unit_capacity_max_systemwide_milp`, `constraints.unit_capacity_min_systemwide_milp`, `constraints.async_flow_in_milp`, `constraints.async_flow_out_milp`, `constraints.available_flow_cap_continuous`, `constraints.available_flow_cap_binary`, `constraints.available_flow_cap_max_binary_continuous_switch`, `constraints.flow_capacity_minimum`, `constraints.storage_capacity_minimum`, `constraints.area_use_minimum`, `constraints.source_capacity_minimum`, `constraints.flow_out_max`, `constraints.flow_out_min`, `constraints.flow_in_max`, `constraints.flow_capacity_systemwide_min`
* modelled in BaseCosts: `global_expressions.cost_investment_purchase`, `global_expressions.cost_investment`
* modelled in CheckList: `checks.distance_only_for_transmission_milp`, `checks.conflicting_flow_caps`, `checks.unit_commitment_only_for_units`, `checks.conflicting_storage_caps`
* not modelled: `parameters.flow_cap_per_unit`, `parameters.purchased_units_min_systemwide`, `parameters.purchased_units_max_systemwide`, `parameters.purchased_units_min`, `parameters.purchased_units_max`, `parameters.storage_cap_per_unit`, `parameters.cost_purchase_per_distance`, `parameters.cost_purchase`, `parameters.flow_cap_min`, `parameters.flow_cap_min_systemwide`, `parameters.flow_out_min_relative`, `lookups.cap_method`, `lookups.integer_dispatch`, `lookups.force_async_flow`

### `math/operate.yaml`

* modelled in BaseCosts: `global_expressions.cost`
* modelled in CheckList: `checks.operate_mode_cyclic_storage`
* not modelled: `parameters.area_use`, `parameters.storage_cap`, `parameters.purchased_units`, `parameters.source_cap`, `parameters.flow_cap`, `parameters.link_flow_cap`

### `math/spores.yaml`

* modelled in BaseCosts: `constraints.total_system_cost_max`, `objectives.min_spores`
* not modelled: `parameters.spores_baseline_cost`, `parameters.spores_slack`, `parameters.spores_score`, `postprocessed.spores_score_cumulative`, `postprocessed.spores_baseline_cost_tracked`

### `math/storage_inter_cluster.yaml`

* modelled in InterCluster: `constraints.balance_supply_with_storage`, `constraints.balance_storage`, `constraints.set_storage_initial`, `constraints.storage_intra_max`, `constraints.storage_intra_min`, `constraints.storage_inter_max`, `constraints.storage_inter_min`, `constraints.balance_storage_inter`
* modelled in Variables: `variables.storage`, `variables.storage_inter_cluster`, `variables.storage_intra_cluster_max`, `variables.storage_intra_cluster_min`
* not modelled: `lookups.timestep_cluster`, `lookups.lookup_datestep_cluster`, `lookups.lookup_datestep_last_cluster_timestep`, `constraints.storage_max`, `checks.cyclic_storage_needs_inter_cluster`

### `model.py`

* modelled in SaveLoad: `read_netcdf`, `Model.to_netcdf`
* modelled in SaveLoad, Versions: `read_dict`
* modelled in Lifecycle, SaveLoad, Session: `Model.__init__`
* modelled in Versions: `Model._check_versions`
* modelled in Lifecycle, Operate, Session: `Model.build`
* modelled in Cli, Lifecycle, Results, Session, SporeFiles: `Model.solve`
* modelled in Csv: `Model.to_csv`
* modelled in Operate: `Model._prepare_operate_mode_inputs`, `Model._recalculate_storage_initial`
* modelled in Operate, Results: `Model._solve_operate`
* modelled in SporeFiles, Spores: `Model._solve_spores`
* modelled in SporeFiles: `Model._spores_save_model`
* modelled in Spores: `Model._spores_update_model`
* modelled in Lifecycle, SporeFiles: `Model._apply_zero_threshold`
* not modelled: `read_yaml`, `Model.name`, `Model.is_built`, `Model.is_solved`, `Model.all_attrs`, `Model.dump_all_attrs`, `Model.run`, `Model.info`

### `postprocess/math_documentation.py`

* modelled in MathDoc: `MathDocumentation.__init__`, `MathDocumentation.math`, `MathDocumentation.write`

### `preprocess/data_tables.py`

* modelled in InitTables: `DataTable.drop`, `DataTable.tech_dict`
* modelled in InitTables, Tables: `DataTable.node_dict`, `DataTable.lookup_dict_from_param`
* modelled in Tables: `DataTable._df_to_ds`, `DataTable._check_for_protected_params`, `DataTable._check_processed_tdf`, `DataTable._compare_axis_names`
* not modelled: `DataTable.__init__`, `DataTable._read_csv`, `DataTable._rename_axes`, `DataTable._raise_error`, `DataTable._log`, `DataTable._listify_if_defined`

### `preprocess/model_data.py`

* modelled in ModelData: `ValidatedInput`, `ModelDataBuilder.build`, `ModelDataBuilder.add_node_tech_data`, `ModelDataBuilder.add_top_level_data_definitions`, `ModelDataBuilder._get_relevant_node_refs`, `ModelDataBuilder._input_data_dict_to_array`, `ModelDataBuilder._definition_dict_to_ds`, `ModelDataBuilder._inherit_defs`, `ModelDataBuilder._deactivate_item`, `ModelDataBuilder._links_to_node_format`, `ModelDataBuilder._add_to_dataset`, `ModelDataBuilder._log_input_data_updates`, `ModelDataBuilder._update_one_way_links`, `ModelDataBuilder._raise_error_on_transmission_tech_def`
* modelled in Clean: `ModelDTypeUpdater._update_dtypes`, `ModelDataCleaner.__init__`, `ModelDataCleaner._drop_undefined`, `ModelDataCleaner._get_distance`
* modelled in InitTables, ModelData: `ModelDataBuilder.__init__`, `ModelDataBuilder.init_from_data_tables`
* modelled in DataSchema, ModelData: `ModelDataBuilder._prepare_input_data_dict`
* modelled in Clean, SaveLoad: `ModelDataCleaner.clean`, `ModelDataCleaner.clean_data_from_undefined_members`, `ModelDataCleaner.add_colors`, `ModelDataCleaner.add_link_distances`, `ModelDataCleaner.update_and_resample_dimensions`
* modelled in Clean, SaveLoad, Time: `ModelDataCleaner._subset_dims`
* modelled in SaveLoad: `ModelDataCleaner._resample_dims`
* not modelled: `ModelDefinition`

### `preprocess/model_definition.py`

* modelled in ModelDefinition: `prepare_model_definition`, `_combine_overrides`, `TemplateSolver.__init__`, `TemplateSolver._resolve_data`
* modelled in AttrDictHeap, ModelDefinition: `_load_scenario_overrides`, `TemplateSolver._resolve`, `TemplateSolver._resolve_template`
* modelled in ModelDefinition, Text: `_load_overrides_from_scenario`
* not modelled: `_log_overrides`

### `preprocess/model_math.py`

* modelled in MathFiles: `initialise_math`
* modelled in Imports, MathText: `get_math_priority`
* modelled in Imports, MathText, SaveLoad: `build_math`
* modelled in Grammar, MathText, WhereGrammar: `_validate_math_string_parsing`

### `preprocess/time.py`

* modelled in SaveLoad, Time: `add_inferred_time_params`, `cluster`
* modelled in Coarse, SaveLoad, Time: `resample`
* modelled in Time: `check_time_subset`, `_lookup_clusters`
* not modelled: `timeseries_to_datetime`, `_datetime_index`, `_check_missing_data`

### `schemas/__init__.py`

* modelled in SaveLoad: `CalliopeAttrs`
* not modelled: `ModelStructure`

### `schemas/config_schema.py`

* modelled in SaveLoad: `Init`
* modelled in Results: `SolveSpores`, `Solve`, `CalliopeConfig`
* not modelled: `Subsets`, `Resamples`, `MathPaths`, `BuildOperate`, `Build`
* The fields are the leaves of the configuration trees of `Config`; their types and defaults are parameters.

### `schemas/data_table_schema.py`

* modelled in TableSchema: `CalliopeDataTable.check_row_and_columns`
* not modelled: `CalliopeDataTables`

### `schemas/dimension_data_schema.py`

* modelled in DataSchema: `IndexedData`, `IndexedTechNodeParam.check_dims`, `CalliopeNode.check_dependent_definitions`
* not modelled: `DimensionData`, `CalliopeTech`, `CalliopeDataDef`, `CalliopeTechs`, `CalliopeNodes`

### `schemas/general.py`

* modelled in Config, DataSchema, TableSchema: `_validate_unique_list`
* modelled in Config: `CalliopeDictModel.update`, `CalliopeListModel.update`, `CalliopeBaseModel.update`
* not modelled: `CalliopeDictModel.__setitem__`, `CalliopeDictModel.__getitem__`, `CalliopeDictModel.__repr__`, `CalliopeDictModel.__rich_repr__`, `CalliopeListModel.__iter__`, `CalliopeListModel.__getitem__`, `CalliopeListModel.__repr__`, `CalliopeListModel.__rich_repr__`, `CalliopeBaseModel.__getitem__`, `CalliopeBaseModel.model_no_ref_schema`

### `schemas/math_schema.py`

* modelled in BaseMath, MathText: `ExpressionItem`
* modelled in MathText: `MathComponent`, `Dimension.default`, `Parameter.dtype`, `MathIndexedComponent`, `Equations`, `SubExpressions`, `MathEquationComponent.must_have_equations_if_active`, `Constraint`, `PiecewiseConstraint.equations`, `PiecewiseConstraint.sub_expressions`, `PiecewiseConstraint.slices`, `GlobalExpression`, `Bounds`, `Variable.equations`, `Variable.sub_expressions`, `Variable.slices`, `Objective.foreach`, `Objective.where`, `PostprocessedExpression`
* modelled in Coarse, MathText: `Lookup`
* modelled in Checks, MathText: `Check`
* modelled in MathSchema: `MathDictModel._active`
* modelled in Assemble, MathSchema, MathText, Registry, Session: `CalliopeBuildMath.unique_component_names`
* modelled in Grammar, MathSchema, MathText, WhereGrammar: `CalliopeBuildMath.parsing_components`
* modelled in MathSchema, Session: `CalliopeBuildMath.find`
* not modelled: `Dimensions`, `Parameters`, `Lookups`, `Variables`, `GlobalExpressions`, `Constraints`, `PiecewiseConstraints`, `Objectives`, `PostprocessedExpressions`, `Checks`, `CalliopeInputMath`, `CalliopeMath`

### `schemas/model_def_schema.py`

* not modelled: `CalliopeModelDef`

### `schemas/runtime_attrs_schema.py`

* modelled in SaveLoad, Versions: `CalliopeRuntime`

### `util/generate_runs.py`

* modelled in Runs: `generate_runs`, `generate_bash_script`, `generate_bsub_script`, `generate_sbatch_script`, `generate_windows_script`
* not modelled: `generate`

### `util/logging.py`

* modelled in Logging: `setup_root_logger`, `set_log_verbosity`, `log_time`, `LogWriter.write`
* not modelled: `LogWriter.__init__`, `LogWriter.flush`

### `util/tools.py`

* modelled in ModelData, Serialise, TableSchema: `listify`
* not modelled: `relative_path`, `get_dot_attr`

## 6. Axioms of each theorem

Printed by `lean/Verif/Audit.lean` on every build.

* **none** (4): `Lifecycle.C29_failed_rebuild`, `Lifecycle.C29_solved_again`, `Lifecycle.C29_read_counts_as_solved`, `LatexWhere.C106_signs`

* **propext** (57): `ModelDefinition.C08_replacement_overridden`, `ModelDefinition.C13_nested_call_survives`, `ModelDefinition.C14_order_matters`, `Imports.C15_override_not_passed_on`, `Imports.C15_importer_loses_value`, `Imports.C16_priority`, `Time.C26_malformed`, `Time.C26_empty_subset_accepted`, `Time.C26_overlap_rejected`, `Lifecycle.C29_guards`, `Registry.C32_two_groups`, `Registry.C32_late_refusal`, `Update.C35_in_place_where`, `Update.C35_hidden_read`, `Update.C35_update_hides_error`, `SolverObjects.C37_gurobi`, `SolverObjects.C37_gurobi_config_stale`, `SolverObjects.C37_gurobi_current`, `SolverObjects.C38_returned`, `SolverObjects.C38_refuses`, `SolverObjects.C38_refusal_partial`, `SolverObjects.C38_min_changed_on_refusal`, `Where.C40_absent_parameter`, `Where.C40_absent_lookup`, `Arith.C42_convention_unique`, `Expr.C46_names`, `Expr.C47_missing_dim`, `Expr.C50_outside`, `ModelData.C52_not_erased`, `ModelData.C55_labels`, `Expr.C68_masked_sum`, `Expand.C69_signed_reference`, `Clean.C72_unknown`, `Results.C90_warmstart`, `Results.Demo.C90_overwritten`, `SaveLoad.Demo.C93_subset_loses`, `SaveLoad.C93_always_solved`, `SaveLoad.C93_no_base`, `SaveLoad.C93_cluster_fixed`, `MathText.C104_shipped`, `MathText.C104_inactive`, `MathText.C104_not_validated`, `LatexIndex.C105_roll_twice`, `LatexIndex.C105_roll_twice_value`, `LatexIndex.C105_select_rolled`, `LatexIndex.C105_roll_sliced`, `LatexIndex.C105_select_sum`, `LatexIndex.C105_group_same_dimension`, `LatexIndex.C105_roll_groups`, `LatexIndex.C105_shared_iterator`, `Tables.SchemaDemo.C107_rename_dropped`, `Session.C108_unsolved_lost`, `Session.Demo.C108_added_parameter`, `Session.Demo.C108_updated_input`, `Copying.C127_shared_inner_list`, `Copying.C127_attrdict_shares`, `Versions.C129_names`

* **propext, Quot.sound** (73): `Dict.C01_get_key_reads`, `Dict.C01_set_then_get`, `Dict.C01_set_raises_iff`, `Dict.C01_set_frame_partial`, `Dict.C01_set_wipes_siblings`, `Text.C01_dotted_recursion`, `Text.C01_dotted_keys`, `Dict.C03_union_raises`, `Dict.C03_union_silently_loses`, `Dict.C04_keys_nested`, `ModelDefinition.C10_order_matters`, `ModelDefinition.C12_terminates`, `Imports.C15_circular_never_succeeds`, `Imports.C16_unknown_name`, `Math.C18_expression_names`, `Time.C25_missing_day_fails`, `Time.C25_self_not_checked`, `Time.C25_last_only_at_midnight`, `Lifecycle.C29_histories`, `Lifecycle.C29_effects`, `Registry.C32_add_existing`, `Update.C35_nan_keeps`, `Update.C35_pyomo_lookup`, `Update.C36_collects`, `Update.C36_acyclic_returns`, `Update.C36_cycle_never_returns`, `SolverObjects.C37_at_most_one`, `SolverObjects.C37_set_exactly_one`, `SolverObjects.C37_build_activates`, `SolverObjects.C37_failed_set_leaves_none`, `SolverObjects.C37_gurobi_deleted_stays`, `SolverObjects.C39_fix_outside`, `SolverObjects.C39_inverse`, `SolverObjects.C39_round_trip`, `SolverObjects.C39_failed_fix_keeps`, `SolverObjects.C39_gurobi_one_way`, `Expr.C47_position`, `Expr.C47_compose`, `Arith.C51_expression_partial`, `ModelData.C52_node`, `BaseMath.C62_lossless`, `SaveLoad.C93_replaces`, `Csv.C94_exists`, `MathText.C104_names`, `Session.C108_recorded`, `Session.C108_definitions_kept`, `Session.C108_rebuild_partial`, `Session.C108_values_lost`, `Session.C108_deleted_returns`, `Session.C108_redefined`, `Session.C108_inactive_lost`, `Session.C108_add`, `Session.C108_added`, `Grammar.C109_accepted`, `Grammar.C109_mentioned_accepted`, `Grammar.C109_mentioned`, `Grammar.C109_no_dot`, `DataSchema.C110_node`, `DataSchema.C110_node_types`, `Merge.C116_names`, `Merge.C116_last`, `Merge.C116_accepted`, `Merge.C116_missing`, `Merge.C116_made`, `Merge.C116_refused`, `Merge.C116_mode`, `Logging.C123_write`, `BaseMath.C126_unscored`, `Versions.C129_running_partial`, `Versions.C129_configured_partial`, `Versions.C129_new`, `Versions.C129_new_silent`, `Versions.C129_unnoticed`

* **propext, Classical.choice, Quot.sound** (698): `Dict.C01_frame_fails`, `Dict.C02_union_override_partial`, `Dict.C02_union_loses_data`, `Dict.C03_union_keeps_partial`, `Dict.C04_flat_round_trip`, `Dict.C05_del_key`, `Dict.C06_replace`, `ModelDefinition.C07_priority_partial`, `ModelDefinition.C07_kwargs_partial`, `ModelDefinition.C08_replacement_partial`, `ModelDefinition.C09_expansion`, `ModelDefinition.C09_errors`, `ModelDefinition.C09_acyclic_returns`, `ModelDefinition.C09_circular_never_returns`, `ModelDefinition.C10_order_independent_partial`, `ModelDefinition.C11_chain_partial`, `ModelDefinition.C11_local_over_template_partial`, `ModelDefinition.C11_template_supplies_partial`, `ModelDefinition.C12_circular_rejected`, `ModelDefinition.C12_no_false_alarm`, `ModelDefinition.C13_no_template_key_partial`, `ModelDefinition.C14_order_independent_partial`, `Imports.C15_importer_wins_partial`, `Imports.C15_duplicate_raises_partial`, `Imports.C16_last_wins_partial`, `Math.C17_unique_names`, `Math.C17_find`, `Math.C18_where_names`, `Registry.C18_build_contents`, `Registry.C18_only_active`, `Registry.C18_all_active`, `Registry.C18_inactive_variable_blocks`, `Registry.C18_inactive_lookup_hides_parameter`, `Config.C19_update`, `Config.C19_new_keys`, `Config.C19_idempotent`, `Config.C19_disjoint_commute`, `Config.C20_unique_partial`, `Config.C20_mixed_lists_fail`, `Serialise.C21_attrs_partial`, `Serialise.C21_round_trip_partial`, `Serialise.C21_coordinates_fail`, `Serialise.C21_empty_list_fails`, `Serialise.C21_import_entry_fails`, `Serialise.C22_memory_unchanged_partial`, `Serialise.C22_type_error_fails`, `Time.C23_resolution`, `Time.C24_resample`, `Time.C24_empty_iff`, `Time.C24_needs_method`, `Time.C25_cluster_partial`, `Time.C26_subset_partial`, `Time.C26_outside_raises_partial`, `Operate.C27_cover_partial`, `Operate.C27_single_window_fails`, `Operate.C27_short_horizon_fails`, `Operate.C28_handover_partial`, `Lifecycle.C30_zero_threshold`, `Lifecycle.C30_joined_conditions`, `Spores.C31_run`, `Spores.C31_refused`, `Spores.C31_integer_scores`, `Spores.C31_relative_scores`, `Spores.C31_random_scores`, `Spores.C31_evolving_scores`, `Spores.C31_restart_partial`, `Spores.C31_evolving_decreases`, `Spores.C31_random_undeployed`, `Spores.C31_restart_evolving_differs`, `Spores.C31_restart_limit`, `Spores.C31_restart_numbers`, `Registry.C32_one_group_partial`, `Registry.C32_clash_leaves_list`, `Registry.C33_build_order`, `Equations.C34_single_equation`, `Equations.C34_overlap_raises`, `Equations.C34_order_irrelevant`, `Update.C35_first_update`, `Update.C35_history_partial`, `Update.C35_stale_after_reorder`, `Update.C35_after_delete`, `Update.C36_rebuilds_dependents`, `Update.C36_history_partial`, `Update.C36_stale_reference`, `SolverObjects.C39_fix_fails`, `Where.C40_pointwise`, `Where.C40_returns`, `Where.C40_item_by_item`, `Where.C40_missing_false`, `Where.C40_defined_any`, `Where.C40_defined_all`, `Where.C40_numbers`, `Where.C41_left_to_right`, `Where.C41_exact`, `Where.C41_conventional_partial`, `Where.C41_or_and`, `Arith.C42_conventional_partial`, `Arith.C42_left_grouping`, `Arith.C42_sign_before_power`, `Arith.C42_power_of_power`, `Arith.C42_values`, `Where.C43_grammar`, `Where.C43_round_trip`, `Arith.C43_arithmetic`, `Expand.C44_product`, `Expand.C44_once`, `Expand.C44_exclusive`, `Expand.C44_exhaustive`, `Where.C45_exact`, `Where.C45_complete`, `Where.C45_built_partial`, `Where.C45_unknown_dimension`, `Where.C45_dimensions`, `Where.C45_returns`, `Where.C45_not_joint`, `Expr.C46_value`, `Expr.C46_missing`, `Expr.C46_absent`, `Expr.C46_nested`, `Expr.C47_total`, `Expr.C48_window_partial`, `Expr.C48_printed`, `Expr.C48_negative`, `Expr.C49_value`, `Expr.C49_total`, `Expr.C50_value_partial`, `Expr.C50_raises`, `Arith.C51_sign_of_sum`, `Arith.C51_sub_expression_in_product`, `Arith.C51_zero_minus`, `Arith.C51_signed_base`, `Arith.C51_power_chain`, `Where.C51_condition_partial`, `Where.C51_or_and`, `Where.C51_or_true`, `ModelData.C52_tech_partial`, `ModelData.C52_listed_partial`, `ModelData.C52_origin`, `ModelData.C52_nothing`, `ModelData.C52_settings_left`, `ModelData.C52_label_origin`, `ModelData.C53_value`, `ModelData.C53_node_wins`, `ModelData.C53_tech_default`, `ModelData.C53_indexed_over_single`, `ModelData.C53_carrier_at_node`, `ModelData.C53_node_label`, `ModelData.C53_labels`, `ModelData.C53_own_labels`, `ModelData.C54_labels`, `ModelData.C54_carrier_in`, `ModelData.C54_carrier_out`, `ModelData.C54_settings`, `ModelData.C54_absent`, `ModelData.C54_loop`, `ModelData.C55_history`, `ModelData.C55_definitions`, `ModelData.C55_definition_labels`, `ModelData.C55_merged`, `Clean.C56_runs`, `Clean.C56_labels`, `Clean.C56_values`, `Clean.C56_kept`, `Clean.C56_matrix`, `Clean.C56_inputs`, `Clean.C56_again`, `Clean.C57_labels`, `Clean.C57_values`, `Clean.C57_matrix`, `Clean.C57_marked`, `Clean.C57_two_nodes`, `Clean.C57_kept_partial`, `Clean.C57_others`, `Clean.C57_other_carriers`, `Clean.C58_colour`, `Clean.C58_all`, `Clean.C58_user`, `Runs.C59_runs`, `Runs.C59_commands`, `Runs.C59_files`, `Runs.C59_script`, `Runs.C59_cluster`, `Runs.C59_empty_scenario`, `Runs.C59_options`, `Runs.C59_windows`, `Runs.C60_product`, `Runs.C60_names`, `Runs.C60_prefix`, `BaseMath.C61_exactly_one`, `BaseMath.C61_rule`, `BaseMath.C62_block`, `BaseMath.C62_horizon`, `BaseMath.C62_cyclic`, `BaseMath.C62_cluster`, `BaseMath.C62_initial`, `BaseMath.C63_balance`, `BaseMath.C63_system`, `BaseMath.C63_outflow`, `BaseMath.C63_inflow`, `BaseMath.C63_transmission`, `BaseMath.C63_conversion`, `BaseMath.C63_no_gain`, `BaseMath.C64_cases_partial`, `BaseMath.C64_value`, `BaseMath.C64_annuity`, `BaseMath.C64_no_interest`, `BaseMath.C64_repays`, `BaseMath.C64_exists`, `BaseMath.C64_limit`, `BaseMath.C64_negative`, `BaseMath.C64_infinite`, `BaseMath.C65_value`, `BaseMath.C65_unweighted_partial`, `BaseMath.C65_error`, `BaseMath.Demo.C65_weights`, `Operate.C66_window_data_partial`, `Operate.C66_gap_keeps_old_value`, `Operate.C66_lookups_not_updated`, `Spores.C67_history_partial`, `Spores.C67_own_baseline_partial`, `Spores.C67_stale_budget`, `Spores.C67_limit_kept`, `Expr.C68_meaning`, `Expr.C68_returns`, `Expr.C68_independent_partial`, `Expand.C69_resolved_partial`, `Expand.C69_signed_slice`, `Expr.C70_expression`, `Expr.C70_comparison`, `Expr.C70_comparison_unchecked`, `Build.C71_constraint`, `Build.C71_expression`, `Clean.C72_distance`, `Clean.C72_fails`, `Tables.C73_value`, `Tables.C73_clash`, `Tables.C73_dims`, `Tables.C73_labels`, `Tables.C73_protected`, `Tables.C73_loads`, `Tables.C73_transposed`, `Tables.C74_nodes`, `Tables.C74_links`, `Tables.C74_lookup`, `Tables.C74_lookup_dims`, `Tables.C74_false_counts`, `Tables.C75_techs`, `Tables.C75_tech_settings`, `Tables.C75_nodes`, `Tables.C75_node_settings`, `Tables.C75_data`, `Tables.C75_once`, `Tables.C75_values`, `Tables.C75_sound`, `Tables.C75_links`, `Tables.C75_deactivated`, `BaseMath.C76_within`, `BaseMath.C76_hours`, `BaseMath.C77_within_day`, `BaseMath.C77_next_day`, `BaseMath.C77_period`, `BaseMath.C77_initial_again`, `BaseMath.C77_first_day`, `BaseMath.C77_cyclic_initial`, `BaseMath.C78_outflow`, `BaseMath.C78_inflow`, `BaseMath.C78_least_outflow`, `BaseMath.C78_source`, `BaseMath.C78_storage`, `BaseMath.C78_depth`, `BaseMath.C78_export`, `BaseMath.C78_idle`, `BaseMath.C78_running`, `BaseMath.C78_unit_capacity`, `BaseMath.C78_units`, `BaseMath.C78_milp_partial`, `BaseMath.C78_unlimited`, `BaseMath.LimitDemo.C78_outflow_above_capacity`, `BaseMath.C79_items`, `BaseMath.C79_exists`, `BaseMath.C79_values`, `BaseMath.C80_async`, `BaseMath.C80_cut`, `BaseMath.C81_investment`, `BaseMath.C81_breakdown`, `BaseMath.C81_annual`, `BaseMath.C81_objective`, `BaseMath.C81_link`, `BaseMath.C81_link_yearly`, `BaseMath.C82_slack`, `BaseMath.C83_capacity`, `BaseMath.C83_storage`, `BaseMath.C83_minimum`, `BaseMath.C83_total`, `BaseMath.C83_total_ignored`, `BaseMath.C83_available`, `BaseMath.C83_least`, `BaseMath.C83_least_continuous`, `BaseMath.C83_storage_minimum`, `BaseMath.C83_area_minimum`, `BaseMath.C83_source_minimum`, `BaseMath.C83_storage_units`, `BaseMath.C83_total_capacity`, `BaseMath.UnitDemo.C83_too_few`, `BaseMath.C84_demand`, `BaseMath.C84_demand_least`, `BaseMath.C84_source`, `BaseMath.C84_source_least`, `BaseMath.C84_supply`, `BaseMath.C84_supply_partial`, `BaseMath.SupplyDemo.C84_twice`, `BaseMath.C85_step`, `BaseMath.C85_steps`, `BaseMath.C86_capacity_factor`, `BaseMath.C86_fraction`, `BaseMath.C86_systemwide`, `BaseMath.C86_systemwide_fraction`, `BaseMath.C86_levelised`, `BaseMath.C86_levelised_again`, `BaseMath.C86_total_levelised`, `BaseMath.C86_total_again`, `BaseMath.C86_unmet`, `BaseMath.C86_curtailment`, `BaseMath.C86_curtailed_partial`, `BaseMath.C86_curtailment_given`, `BaseMath.C86_total_curtailment`, `BaseMath.C86_total_curtailed_partial`, `BaseMath.C86_constant_source`, `BaseMath.PostDemo.C86_wood_twice`, `BaseMath.PostDemo.C86_heat_from_sun`, `BaseMath.PostDemo.C86_negative`, `BaseMath.PostDemo.C86_constant`, `BaseMath.C87_raises`, `BaseMath.C87_passes`, `BaseMath.C87_errors`, `BaseMath.C87_warnings`, `BaseMath.C87_inactive`, `BaseMath.C87_base_tech`, `BaseMath.C87_distance`, `BaseMath.C87_negative_cost`, `BaseMath.C87_finite`, `BaseMath.C87_initial_partial`, `BaseMath.C87_initial_infinite`, `BaseMath.C87_export`, `BaseMath.C87_location_partial`, `BaseMath.C87_location_missed`, `BaseMath.C87_clustered`, `BaseMath.C87_units`, `BaseMath.C87_distance_units`, `BaseMath.C87_warned`, `BaseMath.C87_operate`, `BaseMath.ChecksDemo.C87_half_location`, `BaseMath.ChecksDemo.C87_full_of_storage`, `BaseMath.ChecksDemo.C87_no_storage`, `Clean.C88_absent`, `Clean.C88_default_partial`, `Clean.C88_given`, `Clean.C88_false_beside`, `Clean.DefaultsDemo.C88_lost`, `BaseMath.C89_share_least`, `BaseMath.C89_share_most`, `BaseMath.C89_source`, `BaseMath.C89_area`, `BaseMath.C89_no_area`, `BaseMath.C89_site`, `BaseMath.C89_total_most`, `BaseMath.C89_total_least`, `BaseMath.C89_link`, `BaseMath.C89_link_twice`, `BaseMath.C89_least`, `BaseMath.C89_least_blocks`, `Results.C90_values`, `Results.C90_prices_partial`, `Results.C90_stale`, `Results.C90_integer`, `Results.C90_operate_partial`, `Results.C90_operate_lost`, `Results.C90_operate_again`, `Results.C90_rebuild`, `Results.C90_options`, `Results.C90_gurobi_options_partial`, `Results.C90_gurobi_warmstart`, `Piecewise.C91_items`, `Piecewise.C91_meaning_partial`, `Piecewise.C91_breakpoint_partial`, `Piecewise.C91_range_partial`, `Piecewise.C91_accepted`, `Piecewise.C91_breakpoints_dimension`, `Piecewise.C91_inactive`, `Piecewise.Demo.C91_mispaired`, `Cli.C92_reads`, `Cli.C92_lp`, `Cli.C92_exit_partial`, `Cli.C92_only`, `Cli.C92_written`, `Cli.C92_not_optimal`, `Cli.C92_logs_lost`, `Cli.C92_csv_first`, `Cli.Demo.C92_logs_asked`, `SaveLoad.C93_done`, `SaveLoad.C93_new`, `SaveLoad.C93_reopen`, `SaveLoad.C93_inputs_partial`, `SaveLoad.C93_fresh`, `SaveLoad.C93_loses`, `SaveLoad.C93_no_attrs`, `SaveLoad.C93_interrupted`, `SaveLoad.C93_no_file`, `Csv.C94_rows`, `Csv.C94_files`, `Csv.C94_others`, `Csv.C94_interrupted`, `BaseMath.C95_purchase_partial`, `BaseMath.C95_link`, `BaseMath.C95_investment_partial`, `BaseMath.C95_breakdown_partial`, `BaseMath.C95_annual_partial`, `BaseMath.C95_operate`, `BaseMath.C95_unpriced`, `BaseMath.MilpCostDemo.C95_distance_only`, `Problem.C96_pyomo`, `Problem.C96_pyomo_solution`, `Problem.C96_gurobi_held`, `Problem.C96_gurobi_solution`, `Problem.C96_gurobi_partial`, `Problem.C96_gurobi_piecewise`, `Problem.C96_gurobi_failed`, `Spores.C97_crash_partial`, `Spores.C97_content`, `Spores.C97_saved_partial`, `Spores.C97_restart_partial`, `Spores.C97_unsaved`, `Spores.C97_stale`, `Spores.C97_memory`, `Spores.C97_time_limit`, `Names.C98_identify_partial`, `Names.C98_verbose`, `Names.C98_added`, `Names.C98_ambiguous`, `Names.C98_seconds`, `Names.C98_gurobi_partial`, `Names.C98_gurobi_number`, `Names.C98_gurobi_update`, `Names.C98_deleted`, `Names.C98_gurobi_deleted`, `MathDoc.C99_sorted`, `MathDoc.C99_mutual`, `MathDoc.C99_valid`, `MathDoc.C99_all_partial`, `MathDoc.C99_all_active`, `MathDoc.C99_equations_partial`, `MathDoc.C99_used_in_sound`, `MathDoc.C99_used_in_partial`, `MathDoc.C99_inputs_sound`, `MathDoc.C99_inputs_partial`, `MathDoc.C99_objective`, `MathDoc.C99_format`, `MathDoc.C99_inactive_listed`, `MathDoc.C99_all_silent`, `MathDoc.C99_unused_nowhere`, `MathDoc.C99_one_letter`, `MathDoc.C99_valid_dangling`, `MathDoc.C99_deleted_still_named`, `MathDoc.C99_hidden`, `Readback.C100_loads_iff`, `Readback.C100_values`, `Readback.C100_one_unknown`, `Readback.C100_texts_for_all`, `Readback.C100_gurobi_partial`, `Readback.C100_gurobi_products`, `Grammar.C101_arithmetic`, `Grammar.C101_equation`, `Grammar.C101_sub`, `Grammar.C101_slice`, `Grammar.C101_one_meaning`, `Grammar.C101_validated`, `Grammar.C101_inactive`, `Grammar.C101_inactive_text`, `Grammar.C102_where`, `Grammar.C102_one_meaning`, `Grammar.C102_validated`, `Grammar.C102_inactive_dimension`, `Grammar.C102_two_groups`, `MathText.C103_base`, `MathText.C103_milp`, `MathText.C103_operate`, `MathText.C103_spores`, `MathText.C103_inter_cluster`, `MathText.C103_unmentioned`, `MathText.C103_extra`, `MathText.C103_base_extra`, `MathText.C103_same_name`, `MathText.C104_accepts`, `MathText.C104_same`, `MathText.C104_builds`, `MathText.C104_unread`, `LatexIndex.C105_printed_partial`, `LatexIndex.C105_latex_partial`, `LatexIndex.C105_equation_partial`, `LatexIndex.C105_absent`, `LatexWhere.C106_compared`, `LatexWhere.C106_any_all`, `LatexWhere.C106_no_subscript`, `LatexWhere.C106_operand_partial`, `LatexWhere.C106_condition_partial`, `LatexWhere.C106_defined_implied`, `LatexWhere.C106_defined_two`, `LatexWhere.C106_boolean_input`, `LatexWhere.C106_infinite_input`, `Tables.C107_valid`, `Tables.C107_loaded_partial`, `Tables.C107_loaded_usable`, `Tables.C107_usable`, `Tables.C107_drop_missing`, `Tables.C107_drop_both`, `Tables.C107_no_inputs`, `Tables.C107_select_ignored`, `Tables.SchemaDemo.C107_dropped`, `Tables.SchemaDemo.C107_twice`, `Tables.SchemaDemo.C107_silent`, `Grammar.C109_expression_partial`, `Grammar.C109_condition_partial`, `Grammar.C109_unreachable`, `Grammar.C109_inf`, `Grammar.C109_truth`, `Grammar.C109_odd_names`, `Grammar.C109_odd_name`, `DataSchema.C110_valid`, `DataSchema.C110_loaded`, `DataSchema.C110_dims`, `DataSchema.C110_own_dimension`, `DataSchema.C110_loads_partial`, `DataSchema.C110_repeated`, `DataSchema.C110_mixed`, `DataSchema.C110_lengths`, `DataSchema.C110_labels`, `DataSchema.C110_twice`, `DataSchema.C110_same_label`, `DataSchema.C110_mixed_node`, `Assemble.C111_component`, `Assemble.C111_arrays`, `Assemble.C111_constraint`, `Assemble.C111_objective`, `Assemble.C111_unused`, `Assemble.C112_base`, `Assemble.C112_milp`, `Assemble.C112_operate`, `Assemble.C112_spores`, `Assemble.C112_inter_cluster`, `Assemble.C112_operate_milp_math`, `Assemble.C112_capacity_limits`, `Assemble.C112_fixed`, `Assemble.C112_low_capacity`, `Assemble.C113_order`, `Assemble.C113_consistent`, `Assemble.C113_condition`, `Assemble.C113_operand`, `Assemble.C113_late`, `Assemble.C113_late_condition`, `Assemble.C113_base`, `Assemble.C113_milp`, `Assemble.C113_operate`, `Assemble.C113_operate_milp`, `Assemble.C113_spores`, `Assemble.C113_inter_cluster`, `Coarse.C114_outflow`, `Coarse.C114_inflow`, `Coarse.C114_least`, `Coarse.C114_source_max`, `Coarse.C114_demand`, `Coarse.C114_demand_least`, `Coarse.C114_source`, `Coarse.C114_source_least`, `Coarse.C114_supply`, `Coarse.C114_balance`, `Coarse.C114_storage`, `Coarse.C114_storage_max`, `Coarse.C114_depth`, `Coarse.C114_export`, `Coarse.C114_transmission`, `Coarse.C114_conversion`, `Coarse.C114_taking`, `Coarse.C114_giving`, `Coarse.C114_cost`, `Coarse.C114_undated`, `Coarse.C114_partly`, `Coarse.C114_efficiency`, `Coarse.C114_loss`, `Coarse.C114_ramping`, `Write.C115_arithmetic`, `Write.C115_equation`, `Write.C115_sub`, `Write.C115_slice`, `Write.C115_where`, `Write.C115_different`, `Write.C115_constraint`, `Write.C115_expression`, `Write.C115_variable`, `Write.C115_check`, `Merge.C116_added`, `Linear.C117_mixed`, `Linear.C117_fails`, `Linear.C117_convex`, `Linear.C117_global`, `Linear.C117_base`, `Linear.C117_operate`, `Linear.C117_spores`, `Linear.C117_inter_cluster`, `Linear.C117_milp`, `Linear.C117_operate_milp`, `Linear.C117_product`, `Units.C118_rescaled`, `Units.C118_fails`, `Units.C118_plans`, `Units.C118_best`, `Units.C118_base`, `Units.C118_operate`, `Units.C118_spores`, `Units.C118_milp`, `Units.C118_big_m`, `Units.C118_inter_cluster`, `Units.C118_penalty`, `Units.C118_spores_penalty`, `Loosen.C119_plans`, `Loosen.C119_best`, `Loosen.C119_fails`, `Loosen.C119_base`, `Loosen.C119_operate`, `Loosen.C119_spores`, `Loosen.C119_inter_cluster`, `Loosen.C119_milp`, `Rename.C120_plans`, `Rename.C120_constraints`, `Rename.C120_fails`, `Rename.C120_best`, `Rename.C120_base`, `Rename.C120_operate`, `Rename.C120_spores`, `Rename.C120_inter_cluster`, `Rename.C120_milp`, `Rename.C120_named`, `Typical.C121_plans`, `Typical.C121_constraints`, `Typical.C121_fails`, `Typical.C121_repeat`, `Typical.C121_no_worse`, `Typical.C121_base`, `Typical.C121_operate`, `Typical.C121_spores`, `Typical.C121_milp`, `Typical.C121_inter_cluster`, `Typical.C121_coupling`, `Typical.C121_unweighted`, `Average.C122_averages`, `Average.C122_exact`, `Average.C122_best`, `Average.C122_base`, `Average.C122_operate`, `Average.C122_spores`, `Average.C122_milp`, `Average.C122_integers`, `Logging.C123_once`, `Logging.C123_accepts`, `Logging.C123_solver`, `Logging.C123_warnings`, `Logging.C123_rejected`, `Logging.C123_cli`, `Logging.C123_times`, `Logging.C123_zero`, `BaseMath.C124_rule`, `BaseMath.C124_horizon`, `BaseMath.C124_cyclic`, `BaseMath.C124_carriers`, `Restrict.C125_builds`, `Restrict.C125_plan`, `Restrict.C125_iff`, `Restrict.C125_best`, `Restrict.C125_definitions`, `Restrict.C125_base`, `Restrict.C125_shadowed`, `BaseMath.C126_objective`, `BaseMath.C126_avoids`, `BaseMath.C126_more`, `BaseMath.C126_alternative`, `Spores.C126_count`, `Copying.C127_attrdict`, `Copying.C127_copy_partial`, `Copying.C127_original_partial`, `Copying.C127_to_yaml_partial`, `Dates.C128_plans`, `Dates.C128_fails`, `Dates.C128_best`, `Dates.C128_base`, `Dates.C128_operate`, `Dates.C128_spores`, `Dates.C128_milp`, `Dates.C128_inter_cluster`, `Dates.C128_named`

