import Verif.Model.MathSchema

/-!
# Model of a session: a model, its math and the backend that is changed between solves

Source: `/repo/src/calliope/model.py:271-404` and `/repo/src/calliope/backend/backend_model.py:125-360, 573-670, 705-738,
804-846, 1221-1281, 1464-1477`.

Simplifications:
* Dictionaries are functions from names; their order is left out (see C33).
* What a definition evaluates to is left out: an entry of the dataset keeps its group, the definition by which it was
  built, and for parameters and lookups the values (`none`: the default).  Every array has data.
* The Pyomo backend's own lists of objects are left out (see C32).
* The settings of `build` and `solve` are left out, and so is operate mode, which builds with part of the inputs.
-/

namespace Calliope
namespace Session

open Math (Field Component)

/-- A `CalliopeBuildMath`. -/
abbrev Mth (δ : Type) := Field → String → Option (Component δ)

/-- An entry of the backend's dataset. -/
structure Entry (δ V : Type) where
  group : Field
  comp : Component δ
  value : Option V
  deriving DecidableEq

/-- The backend: `math` and `_dataset`. -/
structure Backend (δ V : Type) where
  math : Mth δ
  data : String → Option (Entry δ V)

/-- A model: `math.build`, `inputs`, `_is_built`, whether there are results, and `backend`. -/
structure Model (δ V : Type) where
  math : Mth δ
  inputs : String → Option V
  built : Bool
  results : Bool
  backend : Option (Backend δ V)

variable {δ V : Type}

/-- Is the component there, and active? -/
def isActive : Option (Component δ) → Bool
  | none => false
  | some c => c.active

/-- `ORDERED_COMPONENTS_T` (preprocess/model_math.py:19-25). -/
def ordered : List Field := [.variables, .globalExpressions, .constraints, .piecewiseConstraints, .objectives]

/-- The entry of an active component. -/
def entryOf (value : Option V) (g : Field) : Option (Component δ) → Option (Entry δ V)
  | none => none
  | some c => if c.active then some ⟨g, c, value⟩ else none

/-- The components of the groups, in turn (backend_model.py:630-635). -/
def components (m : Mth δ) (n : String) : Option (Entry δ V) := ordered.findSome? (fun g => entryOf none g (m g n))

/-- `_load_inputs` (backend_model.py:651-670) with `_add_inputs` (573-595): a lookup hides a parameter of its name. -/
def loadInputs (m : Mth δ) (inputs : String → Option V) (n : String) : Option (Entry δ V) :=
  match m .lookups n with
  | some c => entryOf (inputs n) .lookups (some c)
  | none => entryOf (inputs n) .parameters (m .parameters n)

/-- `add_optimisation_components` on a new backend (backend_model.py:625-640). -/
def load (m : Mth δ) (inputs : String → Option V) (n : String) : Option (Entry δ V) :=
  match loadInputs m inputs n with
  | some e => some e
  | none => components m n

/-- `mapping[n] = v`. -/
def setAt {α : Type} (f : String → α) (n : String) (v : α) (k : String) : α := if k = n then v else f k

/-- `math.update({f"{obj_type}.{name}": definition})` (backend_model.py:738). -/
def mathPut (m : Mth δ) (g : Field) (n : String) (c : Component δ) (f : Field) : String → Option (Component δ) :=
  if f = g then setAt (m f) n (some c) else m f

/-- Is the name active in the math (`find`, math_schema.py:475-488; checks do not count)? -/
def known (m : Mth δ) (n : String) : Bool := (Field.all.filter (fun f => f ≠ .checks)).any (fun f => isActive (m f n))

/-- Is the name active in another group (`unique_component_names`, math_schema.py:422-442)? -/
def clash (m : Mth δ) (g : Field) (n : String) : Bool := Field.all.any (fun f => f ≠ g && isActive (m f n))

/-- How a call ended. -/
inductive Reply where
  | returned | raised
  deriving DecidableEq, Repr

/-- `_add_to_dataset` (backend_model.py:705-738): the math gets the definition only if it has none under this name. -/
def Backend.put (b : Backend δ V) (g : Field) (n : String) (c : Component δ) (v : Option V) : Backend δ V × Reply :=
  if (b.math g n).isSome then ({ b with data := setAt b.data n (some ⟨g, c, v⟩) }, .returned)
  else if c.active && clash b.math g n then ({ b with data := setAt b.data n (some ⟨g, c, v⟩) }, .raised)
  else (⟨mathPut b.math g n c, setAt b.data n (some ⟨g, c, v⟩)⟩, .returned)

/-- `add_<group>` (backend_model.py:125-360): inactive components are not added; a name that is in the dataset and active in
the math raises (`_raise_error_on_preexistence`, 804-846).  `ok`: evaluating the definition does not raise. -/
def Backend.add (b : Backend δ V) (g : Field) (n : String) (c : Component δ) (v : Option V) (ok : Bool) :
    Backend δ V × Reply :=
  if !c.active && g ≠ .parameters && g ≠ .lookups then (b, .returned)
  else if (b.data n).isSome && known b.math n then (b, .raised)
  else if !ok then (b, .raised)
  else b.put g n c v

/-- `delete_component` (pyomo_backend_model.py:417-425, gurobi_backend_model.py:287-303): the math keeps the definition. -/
def Backend.delete (b : Backend δ V) (g : Field) (n : String) : Backend δ V :=
  match b.data n with
  | none => b
  | some e => if e.group = g then { b with data := setAt b.data n none } else b

/-- An entry after `_rebuild_references` (backend_model.py:1464-1477): it is deleted and added with the definition in the
math. -/
def rebuilt (m : Mth δ) (n : String) (e : Entry δ V) : Option (Entry δ V) :=
  if ordered.contains e.group then entryOf none e.group (m e.group n) else some e

/-- `_rebuild_references` for the components `refs`. -/
def Backend.rebuild (b : Backend δ V) (refs : List String) : Backend δ V :=
  { b with data := fun n =>
      match b.data n with
      | none => none
      | some e => if refs.contains n then rebuilt b.math n e else some e }

/-- The parameter or lookup of a name, active in the math (`find` with a subset, backend_model.py:1236). -/
def inputGroup (m : Mth δ) (n : String) : Option Field :=
  if isActive (m .parameters n) then some .parameters else if isActive (m .lookups n) then some .lookups else none

/-- `update_input` (`_update_input`, backend_model.py:1221-1281): the values are replaced and what refers to them, `refs`, is
built again; with Pyomo `refs` is empty if values can be replaced in place.  `v` is the new array, gaps filled. -/
def Backend.update (b : Backend δ V) (n : String) (v : V) (refs : List String) : Backend δ V × Reply :=
  match inputGroup b.math n, b.data n with
  | some g, some e =>
    if e.group = g then ({ b with data := setAt b.data n (some { e with value := some v }) }.rebuild refs, .returned)
    else (b, .raised)
  | _, _ => (b, .raised)

/-- The calls of a user. -/
inductive Op (δ V : Type) where
  | build (force : Bool)
  | solve (force ok optimal : Bool)
  | add (g : Field) (n : String) (c : Component δ) (v : Option V) (ok : Bool)
  | delete (g : Field) (n : String)
  | update (n : String) (v : V) (refs : List String)

/-- `Model.build` (model.py:271-312). -/
def Model.build (s : Model δ V) (force : Bool) : Model δ V × Reply :=
  if s.built && !force then (s, .raised)
  else ({ s with backend := some ⟨s.math, load s.math s.inputs⟩, built := true }, .returned)

/-- `self.math.update({"build": self.backend.math.model_dump()})` (model.py:382). -/
def mergeMath (m m' : Mth δ) (f : Field) (n : String) : Option (Component δ) :=
  match m' f n with
  | some c => some c
  | none => m f n

/-- `Model.solve` (model.py:314-404).  `ok`: the solver does not raise; `optimal`: there are results. -/
def Model.solve (s : Model δ V) (force ok optimal : Bool) : Model δ V × Reply :=
  match s.backend with
  | none => (s, .raised)
  | some b =>
    if !s.built then (s, .raised)
    else if s.results && !force then (s, .raised)
    else if !ok then (s, .raised)
    else ({ s with math := mergeMath s.math b.math, results := optimal }, .returned)

/-- A change of the backend; without one, `model.backend` raises. -/
def Model.change (s : Model δ V) (f : Backend δ V → Backend δ V × Reply) : Model δ V × Reply :=
  match s.backend with
  | none => (s, .raised)
  | some b => ({ s with backend := some (f b).1 }, (f b).2)

/-- One call. -/
def step (s : Model δ V) : Op δ V → Model δ V × Reply
  | .build force => s.build force
  | .solve force ok optimal => s.solve force ok optimal
  | .add g n c v ok => s.change (fun b => b.add g n c v ok)
  | .delete g n => s.change (fun b => (b.delete g n, .returned))
  | .update n v refs => s.change (fun b => b.update n v refs)

/-- A history of calls; a failing call does not end it. -/
def run (s : Model δ V) : List (Op δ V) → Model δ V
  | [] => s
  | o :: os => run (step s o).1 os

/-- A new model (model.py:160-223). -/
def new (m : Mth δ) (inputs : String → Option V) : Model δ V := ⟨m, inputs, false, false, none⟩

end Session
end Calliope
