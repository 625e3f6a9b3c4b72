import Verif.Model.MathSchema

/-!
# Model of the backend registry: adding, deleting and building components

Source: `/repo/src/calliope/backend/backend_model.py:125-360,625-680,705-751,804-846`,
`/repo/src/calliope/backend/pyomo_backend_model.py:59-193,417-425`.

A backend keeps every component three times: as an entry of `_dataset`, as a list of solver
objects in one of the dictionaries of the Pyomo instance, and as a definition in `math`.  What
parsing and evaluating a definition yields is a parameter of each call (`Outcome`); this file
is about the book-keeping around it.  Of an array only "every element is null" is kept.
-/

namespace Calliope
namespace Registry

open Math (Field MathDef Component)

/-- Component bodies: only `order` (math_schema.py, `GlobalExpression.order`, default 0). -/
abbrev Mth := MathDef Int

/-- An entry of `_dataset`: `attrs["obj_type"]` and whether all elements are null. -/
structure Entry where
  group : Field
  null : Bool
  deriving DecidableEq, Repr

/-- The backend: `_dataset`, the keys of the dictionaries of the Pyomo instance
(pyomo_backend_model.py:169-174), those of them whose list holds at least one solver object, and
`math`. -/
structure State where
  dataset : List (String × Entry)
  lists : List (Field × String)
  objs : List (Field × String)
  math : Mth

/-- Whether the Pyomo instance has a dictionary for this group (pyomo_backend_model.py:169-174)
and `add_<group>` is wrapped (pyomo_backend_model.py:49-56). -/
def hasList : Field → Bool
  | .parameters => true
  | .variables => true
  | .globalExpressions => true
  | .constraints => true
  | .piecewiseConstraints => true
  | .objectives => true
  | _ => false

/-- `_dataset[name] = da`. -/
def put : List (String × Entry) → String → Entry → List (String × Entry)
  | [], n, e => [(n, e)]
  | (n', e') :: r, n, e => if n' = n then (n', e) :: r else (n', e') :: put r n e

/-- `del _dataset[name]`. -/
def del (d : List (String × Entry)) (n : String) : List (String × Entry) :=
  d.filter (fun e => e.1 ≠ n)

/-- `math.update({f"{obj_type}.{name}": definition})` for a new name (backend_model.py:738). -/
def mathPut (m : Mth) (f : Field) (n : String) (c : Component Int) : Mth :=
  fun f' => if f' = f then m f ++ [(n, c)] else m f'

/-- What evaluating a definition gives: an exception (`started`: after some solver object was
already created), an array without any object, or an array with objects. -/
inductive Outcome where
  | raises (started : Bool) | empty | filled
  deriving DecidableEq, Repr

/-- How a call ended. -/
inductive Result where
  | returned | raised
  deriving DecidableEq, Repr

/-- `name not in self._dataset or self._dataset[name].isnull().all()`
(pyomo_backend_model.py:109). -/
def emptyIn (d : List (String × Entry)) (n : String) : Bool :=
  match d.lookup n with
  | none => true
  | some e => e.null

/-- `_raise_error_on_preexistence` (backend_model.py:804-846): `true` when it raises.  `find` raising
`KeyError` is caught; a name active in several places raises `ValueError`, which is not. -/
def preexists (s : State) (n : String) : Bool :=
  match s.dataset.lookup n with
  | none => false
  | some _ => match Math.find s.math n [] with
    | .error .keyError => false
    | _ => true

/-- `_add_to_dataset` (backend_model.py:705-738): the entry is written first; then a definition not
yet in `math` is added there, where validation may raise `ValueError` for a name that is active
in another group (math_schema.py:422-442). -/
def addToDataset (s : State) (g : Field) (n : String) (null : Bool) (c : Component Int) :
    State × Result :=
  let d := put s.dataset n ⟨g, null⟩
  if ((s.math g).map Prod.fst).contains n then ({ s with dataset := d }, .returned)
  else match Math.uniqueComponentNames (mathPut s.math g n c) with
    | .error _ => ({ s with dataset := d }, .raised)
    | .ok _ => ({ s with dataset := d, math := mathPut s.math g n c }, .returned)

/-- `self._instance.<group>[name].append(obj)` (e.g. pyomo_backend_model.py:566). -/
def withObj (s : State) (g : Field) (n : String) : State :=
  if hasList g then { s with objs := s.objs ++ [(g, n)] } else s

/-- Preexistence check, evaluation, registration (e.g. backend_model.py:230-257). -/
def addActive (s : State) (g : Field) (n : String) (c : Component Int) (o : Outcome) :
    State × Result :=
  if preexists s n then (s, .raised)
  else match o with
    | .raises started => (if started then withObj s g n else s, .raised)
    | .empty => addToDataset s g n true c
    | .filled => addToDataset (withObj s g n) g n false c

/-- Whether metadata is kept for a deactivated variable (backend_model.py:185-190). -/
def keepsShell (m : Mth) (n : String) : Bool :=
  (Math.whereNames m .results).contains n && !(Math.expressionNames m .results).contains n

/-- The body of `add_<group>` in `backend_model.py`: `add_lookup` 125-143, `add_parameter`
145-165 (pyomo_backend_model.py:179-193), `add_variable` 167-213, `add_global_expression`
215-257, `add_constraint` 259-301, `add_objective` 318-360, `add_piecewise_constraint` 912-991.
Parameters and lookups do not look at `active`.  A deactivated piecewise constraint can still
raise, before anything is done. -/
def addBody (s : State) (g : Field) (n : String) (c : Component Int) (o : Outcome) :
    State × Result :=
  if g = .parameters ∨ g = .lookups ∨ c.active then addActive s g n c o
  else if g = .variables then
    if keepsShell s.math n then addToDataset s g n true c else (s, .returned)
  else if g = .piecewiseConstraints ∧ o = .raises false then (s, .raised)
  else (s, .returned)

/-- `add_<group>` with the wrapper of the Pyomo backend (pyomo_backend_model.py:96-112): an empty
list is created first, `BackendError` if there is one already, and removed at the end if the
dataset has no object under that name. -/
def add (s : State) (g : Field) (n : String) (c : Component Int) (o : Outcome) : State × Result :=
  if hasList g then
    if s.lists.contains (g, n) then (s, .raised)
    else
      let r := addBody { s with lists := s.lists ++ [(g, n)] } g n c o
      if emptyIn r.1.dataset n then
        ({ r.1 with
            lists := r.1.lists.filter (fun e => e ≠ (g, n)),
            objs := r.1.objs.filter (fun e => e ≠ (g, n)) }, r.2)
      else r
  else addBody s g n c o

/-- `delete_component` (pyomo_backend_model.py:417-425).  The instance has no dictionary for lookups,
so `getattr(self._instance, "lookups")` raises `AttributeError`. -/
def delete (s : State) (g : Field) (n : String) : State × Result :=
  if hasList g then
    ({ s with
        lists := s.lists.filter (fun e => e ≠ (g, n)),
        objs := s.objs.filter (fun e => e ≠ (g, n)),
        dataset := (if (s.dataset.lookup n).map Entry.group = some g then del s.dataset n
          else s.dataset) }, .returned)
  else (s, .raised)

/-- The calls a user can make. -/
inductive Op where
  | add (g : Field) (n : String) (c : Component Int) (o : Outcome)
  | delete (g : Field) (n : String)
  deriving DecidableEq, Repr

def step (s : State) : Op → State × Result
  | .add g n c o => add s g n c o
  | .delete g n => delete s g n

/-- A history of calls; a failing call does not end it. -/
def run (s : State) : List Op → State
  | [] => s
  | o :: os => run (step s o).1 os

/-- A new backend: empty dataset, empty instance (backend_model.py:114, pyomo_backend_model.py:167-174). -/
def init (m : Mth) : State := ⟨[], [], [], m⟩

/-- `ORDERED_COMPONENTS_T` (preprocess/model_math.py:19-25). -/
def orderedGroups : List Field :=
  [.variables, .globalExpressions, .constraints, .piecewiseConstraints, .objectives]

/-- Stable insertion by `order`. -/
def insertByOrder (x : String × Component Int) :
    List (String × Component Int) → List (String × Component Int)
  | [] => [x]
  | y :: r => if x.2.body ≤ y.2.body then x :: y :: r else y :: insertByOrder x r

/-- `_sorted_by_order` (backend_model.py:678-680): Python's stable `sorted`. -/
def sortedByOrder : List (String × Component Int) → List (String × Component Int)
  | [] => []
  | x :: r => insertByOrder x (sortedByOrder r)

/-- The calls made by `add_optimisation_components` after the inputs are loaded
(backend_model.py:625-640). -/
def componentCalls (m : Mth) : List (Field × String × Component Int) :=
  orderedGroups.flatMap (fun g => (sortedByOrder (m g)).map (fun x => (g, x.1, x.2)))

/-- `obj_type` of a name in `inputs` after `_add_inputs` (backend_model.py:573-595): parameters are
written first and a lookup of the same name overwrites them.  (`dimensions` become coordinates,
which `data_vars` leaves out.) -/
def inputNames (m : Mth) : List (String × Field) :=
  (((m .parameters).map Prod.fst).filter (fun n => !((m .lookups).map Prod.fst).contains n)).map
      (fun n => (n, Field.parameters))
    ++ ((m .lookups).map Prod.fst).map (fun n => (n, Field.lookups))

/-- The calls made by `_load_inputs` (backend_model.py:651-670). `data_vars` keeps the position of an
overwritten parameter; the order of loading is immaterial here, so parameters that a lookup
overwrites are listed at the lookup's place. -/
def inputCalls (m : Mth) : List (Field × String × Component Int) :=
  (inputNames m).filterMap (fun x =>
    match (m x.2).lookup x.1 with
    | some c => if c.active then some (x.2, x.1, c) else none
    | none => none)

/-- `for ...: getattr(self, f"add_{component}")(name, definition)`: the first exception ends the
build. -/
def addAll (out : Field → String → Outcome) (s : State) :
    List (Field × String × Component Int) → State × Result
  | [] => (s, .returned)
  | (g, n, c) :: r =>
      match add s g n c (out g n) with
      | (s', .raised) => (s', .raised)
      | (s', .returned) => addAll out s' r

/-- `add_optimisation_components` (backend_model.py:625-640) on a new backend. -/
def build (out : Field → String → Outcome) (m : Mth) : State × Result :=
  addAll out (init m) (inputCalls m ++ componentCalls m)

end Registry
end Calliope
