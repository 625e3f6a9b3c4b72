import Verif.Model.AttrDict

/-!
# Model of `update_input` and reference tracking

Source: `/repo/src/calliope/backend/backend_model.py:705-751,1221-1281,1449-1477`,
`/repo/src/calliope/backend/pyomo_backend_model.py:417-432`,
`/repo/src/calliope/backend/gurobi_backend_model.py:287-311`.

What evaluating the definition of a component does is a function of the input data and of the
component arrays built so far (`Comp.run`); it reports the names it has read
(`eval_attrs.references`) or raises.  Input arrays are functions from items to values, `none`
for NaN; an array built for a component is of an opaque type `S`.
-/

namespace Calliope
namespace Update

/-- Input data: `self.inputs`. -/
abbrev Inputs (ι V : Type) := String → ι → Option V

/-- The definition of a component: the number of its group in `ORDERED_COMPONENTS_T`, and what
`add_<group>` computes: the array and the set of references, or an exception (`none`). -/
structure Comp (ι V S : Type) where
  group : Nat
  run : Inputs ι V → (String → Option S) → Option (S × List String)

/-- The backend: input data, names of components in the order of `_dataset`, their arrays, and
`attrs["references"]` of every entry of `_dataset` (inputs included). -/
structure State (ι V S : Type) where
  inputs : Inputs ι V
  order : List String
  held : String → Option S
  refs : String → List String

/-- `ORDERED_COMPONENTS_T` has five groups (preprocess/model_math.py:19-25). -/
def groups : List Nat := [0, 1, 2, 3, 4]

variable {ι V S : Type}

/-- `mapping[n] = v`. -/
def setAt {α : Type} (f : String → α) (n : String) (v : α) : String → α :=
  fun m => if m = n then v else f m

/-- `set.add`. -/
def insertName (x : String) (l : List String) : List String := if x ∈ l then l else l ++ [x]

/-- Names in `_dataset`: the inputs loaded at the start and the components. -/
def known (isIn : String → Bool) (held : String → Option S) (n : String) : Bool :=
  isIn n || (held n).isSome

/-- `_update_references` (backend_model.py:740-751): names that are not in the dataset are skipped. -/
def addRefs (x : String) (r : List String) (kn : String → Bool) (refs : String → List String) :
    String → List String :=
  fun n => if r.contains n && kn n then insertName x (refs n) else refs n

/-- `add_<group>(name, definition)` for a name that is not in the dataset, ending with `_add_to_dataset`
(backend_model.py:728-735): the new entry starts with no references to it. -/
def add (isIn : String → Bool) (x : String) (c : Comp ι V S) (s : State ι V S) :
    Option (State ι V S) :=
  match c.run s.inputs s.held with
  | none => none
  | some (v, r) =>
      some { s with
        order := s.order ++ [x],
        held := setAt s.held x (some v),
        refs := addRefs x r (known isIn (setAt s.held x (some v))) (setAt s.refs x []) }

/-- `delete_component` for a component (pyomo_backend_model.py:417-425).  Entries for it in the
references of others stay. -/
def delete (x : String) (s : State ι V S) : State ι V S :=
  { s with
      order := s.order.filter (fun y => y ≠ x),
      held := setAt s.held x none,
      refs := setAt s.refs x [] }

/-- Whether a call returned. -/
inductive Result where
  | returned | raised | diverged
  deriving DecidableEq, Repr

/-- All components in turn (backend_model.py:631-635): from an empty dataset with the inputs loaded. -/
def addAll (isIn : String → Bool) : List (String × Comp ι V S) → State ι V S →
    Option (State ι V S)
  | [], s => some s
  | (x, c) :: r, s => match add isIn x c s with
    | none => none
    | some s' => addAll isIn r s'

/-- Building from scratch: `add_optimisation_components` (backend_model.py:625-640). -/
def scratch (isIn : String → Bool) (defs : List (String × Comp ι V S)) (i : Inputs ι V) :
    Option (State ι V S) :=
  addAll isIn defs ⟨i, [], fun _ => none, fun _ => []⟩

/-- `references.update(...)`. -/
def unionNames (a b : List String) : List String := a ++ b.filter (fun x => !a.contains x)

/-- The loop of `_find_all_references` (backend_model.py:1459-1461); `rec` is the recursive call. -/
def collect (rec : List String → Option (Except Err (List String))) (kn : String → Bool)
    (refs : String → List String) : List String → List String →
    Option (Except Err (List String))
  | [], acc => some (.ok acc)
  | x :: xs, acc =>
      if kn x then
        match rec (refs x) with
        | none => none
        | some (.error e) => some (.error e)
        | some (.ok l) => collect rec kn refs xs (unionNames acc l)
      else some (.error .keyError)

/-- `_find_all_references` (backend_model.py:1449-1462).  `none`: more than `fuel` nested calls. -/
def findAll (kn : String → Bool) (refs : String → List String) :
    Nat → List String → Option (Except Err (List String))
  | 0, _ => none
  | f + 1, start => collect (findAll kn refs f) kn refs start start

/-- The body of the loops of `_rebuild_references` (backend_model.py:1475-1477): delete, then add with
the definition in the math. -/
def rebuildList (isIn : String → Bool) (defs : List (String × Comp ι V S)) :
    List String → State ι V S → State ι V S × Result
  | [], s => (s, .returned)
  | x :: xs, s =>
      match defs.lookup x with
      | none => (delete x s, .raised)
      | some c => match add isIn x c (delete x s) with
        | none => (delete x s, .raised)
        | some s' => rebuildList isIn defs xs s'

/-- Whether a component belongs to a group and to the set to rebuild (backend_model.py:1474). -/
def selected (defs : List (String × Comp ι V S)) (R : List String) (g : Nat) (x : String) : Bool :=
  ((defs.lookup x).map Comp.group == some g) && R.contains x

/-- `_rebuild_references` (backend_model.py:1464-1477): group by group, within a group in the order of
the dataset at that moment. -/
def rebuildGroups (isIn : String → Bool) (defs : List (String × Comp ι V S)) (R : List String) :
    List Nat → State ι V S → State ι V S × Result
  | [], s => (s, .returned)
  | g :: gs, s =>
      match rebuildList isIn defs (s.order.filter (selected defs R g)) s with
      | (s', .returned) => rebuildGroups isIn defs R gs s'
      | r => r

/-- `new_values.broadcast_like(input_da).fillna(input_da)` (backend_model.py:1252). -/
def merge (new old : ι → Option V) : ι → Option V := fun j =>
  match new j with
  | some v => some v
  | none => old j

/-- The rebuild branch of `_update_input` (backend_model.py:1254-1275): the input is written first, its
entry in the dataset is deleted and added again (without references), then everything that
referred to the old entry is rebuilt. -/
def updateRebuild (isIn : String → Bool) (defs : List (String × Comp ι V S)) (fuel : Nat)
    (s : State ι V S) (p : String) (new : ι → Option V) : State ι V S × Result :=
  let s1 : State ι V S :=
    { s with inputs := setAt s.inputs p (merge new (s.inputs p)), refs := setAt s.refs p [] }
  match findAll (known isIn s1.held) s1.refs fuel (s.refs p) with
  | none => (s1, .diverged)
  | some (.error _) => (s1, .raised)
  | some (.ok R) => rebuildGroups isIn defs R groups s1

/-- The in-place branch (backend_model.py:1276-1278, pyomo_backend_model.py:431-432): only the values of
the parameter objects change; every component keeps its array, which holds those objects. -/
def updateInPlace (s : State ι V S) (p : String) (new : ι → Option V) : State ι V S :=
  { s with inputs := setAt s.inputs p (merge new (s.inputs p)) }

inductive Backend where
  | pyomo | gurobi
  deriving DecidableEq, Repr
inductive Kind where
  | parameter | lookup
  deriving DecidableEq, Repr

/-- The test of backend_model.py:1256-1262 over the items `is`; `newDims` says that the new values have
dimensions the old ones lack. -/
def mustRebuild (b : Backend) (k : Kind) (newDims : Bool) (is : List ι) (old new : ι → Option V) :
    Bool :=
  newDims || is.any (fun j => (old j).isNone && (new j).isSome) || k = .lookup || b = .gurobi

/-- `update_input` (pyomo_backend_model.py:427-432, gurobi_backend_model.py:305-309, backend_model.py:1221-1281).
With Pyomo, deleting a lookup raises `AttributeError` (pyomo_backend_model.py:420), after the input
was written. -/
def updateInput (isIn : String → Bool) (defs : List (String × Comp ι V S)) (fuel : Nat)
    (b : Backend) (k : Kind) (newDims : Bool) (is : List ι) (s : State ι V S) (p : String)
    (new : ι → Option V) : State ι V S × Result :=
  if isIn p then
    if mustRebuild b k newDims is (s.inputs p) new then
      if b = .pyomo ∧ k = .lookup then (updateInPlace s p new, .raised)
      else updateRebuild isIn defs fuel s p new
    else (updateInPlace s p new, .returned)
  else (s, .raised)

end Update
end Calliope
