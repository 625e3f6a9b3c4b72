import Verif.Model.Operate

/-!
# Model of the results of a solve and of shadow prices

Source: `/repo/src/calliope/backend/backend_model.py:1392-1447, 1537-1600`,
`/repo/src/calliope/backend/pyomo_backend_model.py:340-395, 844-890`, `/repo/src/calliope/model.py:314-404, 505-581`.

Arrays are of a type `A`, with a test for whether there is any value in them.  What the solver finds is an arbitrary
`Found`.  Pyomo itself is not part of the repository: it is taken to replace the content of the dual suffix with the
duals found if the suffix is active when a solution is loaded, and to leave it as it is otherwise.
-/

namespace Calliope
namespace Results

variable {A : Type}

/-- Arrays of results: an array without any value, and the test `v.notnull().any()` (backend_model.py:1443). -/
structure Arrays (A : Type) where
  nothing : A
  hasValue : A → Bool

/-- What the solver finds: values of the decision variables, global expressions and objectives, and of the duals. -/
structure Found (A : Type) where
  decisions : List (String × A)
  expressions : List (String × A)
  objectives : List (String × A)
  duals : List (String × A)

/-- What a backend has that matters here: its constraints, whether it has integer or binary variables, the constraints
that are tracked (`_tracked`), and whether the dual suffix is active and what is in it. -/
structure Backend (A : Type) where
  constraints : List String
  integer : Bool
  tracked : List String
  active : Bool
  store : List (String × A)

/-- A new backend (backend_model.py:1543, pyomo_backend_model.py:176-177, 847-851). -/
def newBackend (constraints : List String) (integer : Bool) : Backend A :=
  { constraints, integer, tracked := [], active := false, store := [] }

/-- `PyomoShadowPrices.activate` (pyomo_backend_model.py:864-870). -/
def activate (b : Backend A) : Backend A := if b.integer then b else { b with active := true }

/-- `PyomoShadowPrices.deactivate` (pyomo_backend_model.py:872-874). -/
def deactivate (b : Backend A) : Backend A := { b with active := false }

/-- `ShadowPrices.track_constraints` (backend_model.py:1579-1600), with the constraints it warns of. -/
def trackConstraints (asked : List String) (b : Backend A) : Backend A × List String :=
  let invalid := asked.filter (fun c => decide (c ∉ b.constraints))
  let valid := asked.filter (fun c => decide (c ∈ b.constraints))
  let b' := if valid ≠ [] then activate b else b
  ({ b' with tracked := valid }, invalid)

/-- `d[k] = v` for a dictionary in the order of its keys. -/
def assign (d : List (String × A)) (k : String) (v : A) : List (String × A) :=
  match d with
  | [] => [(k, v)]
  | (k', v') :: r => if k' = k then (k, v) :: r else (k', v') :: assign r k v

/-- `{**d, **e}` (backend_model.py:1427-1432), also `assign` of datasets (line 1438). -/
def merge (d e : List (String × A)) : List (String × A) := e.foldl (fun d p => assign d p.1 p.2) d

/-- `PyomoShadowPrices.get` (pyomo_backend_model.py:853-862, 886-890): what is in the suffix, nothing otherwise. -/
def getPrice (arrays : Arrays A) (b : Backend A) (c : String) : A := (b.store.lookup c).getD arrays.nothing

/-- `load_results` (backend_model.py:1392-1447).  `post` are the postprocessed arrays. -/
def loadResults (arrays : Arrays A) (post : List (String × A) → List (String × A)) (postprocess : Bool) (f : Found A)
    (b : Backend A) : List (String × A) :=
  let prices := b.tracked.map (fun c => ("shadow_price_" ++ c, getPrice arrays b c))
  let results := merge (merge (merge (merge [] f.decisions) f.expressions) prices) f.objectives
  let results := if postprocess then merge results (post results) else results
  results.filter (fun p => arrays.hasValue p.2)

/-- What the Pyomo solver object is called with (pyomo_backend_model.py:349-373). -/
structure SolverCall where
  solver : String
  options : List (String × String)
  symbolicLabels : Bool
  keepFiles : Bool
  warmstart : Bool
  deriving DecidableEq, Repr

/-- The solve configuration that matters here (config_schema.py:188-240). -/
structure SolveConfig where
  solver : String
  options : List (String × String) := []
  saveLogs : Option String := none
  postprocessing : Bool := true
  shadowPrices : List String := []

/-- The call that `_solve` makes (pyomo_backend_model.py:349-373), with whether it warns that the solver cannot start
from a solution.  The local variable `warmstart` is not among the arguments in line 373. -/
def solverCall (cfg : SolveConfig) (warmstart : Bool) : SolverCall × Bool :=
  let logs := cfg.saveLogs.isSome
  let warns := warmstart && decide (cfg.solver ∈ ["glpk", "cbc"])
  (⟨cfg.solver, merge [] cfg.options, logs, logs, false⟩, warns)

/-- `setParam` of a Gurobi model. -/
def setParam (p : String → String) (k v : String) : String → String := fun x => if x = k then v else p x

/-- The parameters of the Gurobi model when it is solved (gurobi_backend_model.py:218-231), `before` those it had,
`defaults` those that `resetParams` gives. -/
def gurobiParams (defaults _before : String → String) (cfg : SolveConfig) (warmstart : Bool) : String → String :=
  let p := cfg.options.foldl (fun p o => setParam p o.1 o.2) defaults
  let p := if warmstart then p else setParam p "LPWarmStart" "0"
  match cfg.saveLogs with
  | some d => setParam p "LogFile" (d ++ "/gurobi.log")
  | none => p

/-- The parameters after any number of solves. -/
def gurobiAfter (defaults : String → String) (p : String → String) : List (SolveConfig × Bool) → String → String
  | [] => p
  | c :: cs => gurobiAfter defaults (gurobiParams defaults p c.1 c.2) cs

/-- The suffix when a solution is loaded (pyomo_backend_model.py:378). -/
def loadSolution (f : Found A) (b : Backend A) : Backend A := if b.active then { b with store := f.duals } else b

/-- `PyomoBackendModel._solve` (pyomo_backend_model.py:340-395): the backend after it, and the results, `none` if the
solver does not find a solution. -/
def solveBackend (arrays : Arrays A) (post : List (String × A) → List (String × A)) (cfg : SolveConfig)
    (found : Option (Found A)) (b : Backend A) : Backend A × Option (List (String × A)) :=
  let b := if cfg.solver = "cbc" ∧ b.active then deactivate b else b
  match found with
  | some f =>
    let b := loadSolution f b
    (b, some (loadResults arrays post cfg.postprocessing f b))
  | none => (b, none)

/-- `Model.solve` of a model in base mode (model.py:352, 366), without the zero threshold (`Lifecycle`). -/
def solve (arrays : Arrays A) (post : List (String × A) → List (String × A)) (cfg : SolveConfig)
    (found : Option (Found A)) (b : Backend A) : Backend A × Option (List (String × A)) :=
  solveBackend arrays post cfg found (trackConstraints cfg.shadowPrices b).1

/-- The backend after any number of solves. -/
def afterSolves (arrays : Arrays A) (post : List (String × A) → List (String × A)) (b : Backend A) :
    List (SolveConfig × Option (Found A)) → Backend A
  | [] => b
  | (cfg, found) :: rest => afterSolves arrays post (solve arrays post cfg found b).1 rest

/-- The loop of `_solve_operate` over later windows (model.py:528-572), as far as results under a name go: a window
with another number of time steps is solved with a new backend (lines 546-551).  `found` has what the solver finds for
each window, with whether the model is built again for it. -/
def operateLoop (arrays : Arrays A) (post : List (String × A) → List (String × A)) (cfg : SolveConfig) :
    Backend A → List (Bool × Found A) → List (List (String × A))
  | _, [] => []
  | b, (rebuild, f) :: rest =>
    let b := if rebuild then newBackend b.constraints b.integer else b
    let r := solveBackend arrays post cfg (some f) b
    (r.2.getD []) :: operateLoop arrays post cfg r.1 rest

/-- `Model.solve` of a model in operate mode (model.py:352, 362, 505-581), if all windows have a solution: the results
of each window.  `again` is `_start_window_idx != 0` (lines 517-520). -/
def solveOperate (arrays : Arrays A) (post : List (String × A) → List (String × A)) (cfg : SolveConfig) (again : Bool)
    (first : Found A) (later : List (Bool × Found A)) (b : Backend A) : List (List (String × A)) :=
  let b := (trackConstraints cfg.shadowPrices b).1
  operateLoop arrays post cfg b ((again, first) :: later)

/-- Whether the model is built again for each window but the first (model.py:546): it has another number of time steps
than the one before. -/
def rebuilds {L : Type} (c : Operate.Cfg L) : List Int → List Bool
  | w :: w' :: ws =>
    decide ((Operate.windowTimes c w').length ≠ (Operate.windowTimes c w).length) :: rebuilds c (w' :: ws)
  | _ => []

end Results
end Calliope
