/-!
# Model of the math documentation

Source: `/repo/src/calliope/backend/latex_backend_model.py:357-635,640-712`,
`/repo/src/calliope/backend/backend_model.py:125-404,682-751`,
`/repo/src/calliope/postprocess/math_documentation.py:17-104`.

The LaTeX backend keeps, beside its dataset, one rendered string per component.  What parsing a
definition yields (the rendered pieces, the names they refer to, whether the where strings hold
for some index item) is given with each definition; this file is about what the document lists.
Only calls that return are modelled: the name clashes that raise are in `Model/Registry.lean`.
-/

namespace Calliope
namespace MathDoc

/-- The component groups of a document, in the order of latex_backend_model.py:595-604. -/
inductive Grp where
  | objectives | constraints | piecewise | globalExpressions | variables | postprocessed
  | parameters | lookups
  deriving DecidableEq, Repr

/-- A rendered piece of math: its LaTeX string, the names it refers to and whether its where
string holds for some index item at which the component's own where string holds. -/
structure Eqn where
  text : String
  refs : List String
  holds : Bool
  deriving DecidableEq, Repr

/-- A component definition with what parsing it yields.  `top`: the component's where string holds
somewhere; `shell`: metadata is kept of a deactivated variable (backend_model.py:185-190,
`Registry.keepsShell`); `parts`: bounds of a variable, or expressions and values of a piecewise
constraint. -/
structure Decl where
  group : Grp
  name : String
  active : Bool
  shell : Bool
  top : Bool
  topRefs : List String
  eqs : List Eqn
  parts : List Eqn
  deriving DecidableEq, Repr

/-- An array of the dataset: `attrs["obj_type"]` (missing for a deactivated postprocessed
expression) and `attrs["references"]`, the names of the components that refer to it. -/
structure Entry where
  group : Option Grp
  usedIn : List String
  deriving DecidableEq, Repr

/-- The LaTeX backend: its dataset, `math_strings` (`none` is the empty string) and the
deactivated postprocessed expressions met so far. -/
structure State where
  data : List (String × Entry)
  strings : List ((Grp × String) × Option (List String))
  dead : List String
  deriving DecidableEq, Repr

/-- A new backend. -/
def State.empty : State := ⟨[], [], []⟩

/-- `dict[key] = value`. -/
def put {α β : Type} [DecidableEq α] : List (α × β) → α → β → List (α × β)
  | [], k, v => [(k, v)]
  | (k', v') :: r, k, v => if k' = k then (k', v) :: r else (k', v') :: put r k v

/-- `set.add`. -/
def setAdd (l : List String) (n : String) : List String :=
  if l.contains n then l else l ++ [n]

/-- `_update_references` (backend_model.py:740-751): names that are not in the dataset are
skipped. -/
def note (data : List (String × Entry)) (n : String) (refs : List String) :
    List (String × Entry) :=
  data.map (fun e => (e.1, if refs.contains e.1 then ⟨e.2.group, setAdd e.2.usedIn n⟩ else e.2))

/-- `_add_to_dataset` (backend_model.py:705-738): a fresh entry, then the references. -/
def addToDataset (data : List (String × Entry)) (g : Grp) (n : String) (refs : List String) :
    List (String × Entry) :=
  note (put data n ⟨some g, []⟩) n refs

/-- `_generate_math_string` (latex_backend_model.py:686-712): whether a string is rendered. -/
def shows (all anyValid active : Bool) : Bool := all || (anyValid && active)

/-- `self.math_strings[group][name] = …` (latex_backend_model.py:712). -/
def setString (s : State) (g : Grp) (n : String) (shown : Bool) (texts : List String) : State :=
  { s with strings := put s.strings (g, n) (if shown then some texts else none) }

/-- `set.difference(name)` (latex_backend_model.py:461): the argument is a string, so what is taken
away are the one-letter names of its characters. -/
def lessLetters (refs : List String) (n : String) : List String :=
  refs.filter (fun r => !(n.toList.map (fun c => String.ofList [c])).contains r)

/-- `_eval_equations` (latex_backend_model.py:640-684) is reached only when the component's where
string holds somewhere (backend_model.py:238-249). -/
def equationTexts (all : Bool) (d : Decl) : List String :=
  if d.top then (d.eqs.filter (fun e => all || e.holds)).map Eqn.text else []

/-- The references collected while adding (backend_model.py:235-247,
latex_backend_model.py:655-679). -/
def equationRefs (d : Decl) : List String :=
  d.topRefs ++ (if d.top then d.eqs.flatMap Eqn.refs else [])

/-- `da.fillna(0).astype(bool).any()` of a component with equations
(latex_backend_model.py:649-653,680-682,695). -/
def equationsValid (d : Decl) : Bool := d.top && d.eqs.any Eqn.holds

/-- The base class part of `add_variable` (backend_model.py:167-213). -/
def baseVariable (s : State) (d : Decl) : State :=
  if d.active then { s with data := addToDataset s.data .variables d.name d.topRefs }
  else if d.shell then { s with data := addToDataset s.data .variables d.name [] }
  else s

/-- The rest of `add_variable` (latex_backend_model.py:452-469). -/
def drawVariable (all : Bool) (s : State) (d : Decl) : State :=
  setString { s with data := note s.data d.name (lessLetters (d.parts.flatMap Eqn.refs) d.name) }
    .variables d.name (shows all (d.active && d.top) d.active) (d.parts.map Eqn.text)

/-- `name in self.variables` (latex_backend_model.py:450). -/
def isVariable (s : State) (n : String) : Bool :=
  match s.data.lookup n with
  | some e => e.group == some .variables
  | none => false

/-- `add_variable` (latex_backend_model.py:446-469). -/
def addVariable (all : Bool) (s : State) (d : Decl) : State :=
  if isVariable (baseVariable s d) d.name then drawVariable all (baseVariable s d) d
  else baseVariable s d

/-- `add_piecewise_constraint` (latex_backend_model.py:387-432): `active` is not looked at. -/
def addPiecewise (all : Bool) (s : State) (d : Decl) : State :=
  setString
    { s with data := addToDataset s.data .piecewise d.name (d.topRefs ++ d.parts.flatMap Eqn.refs) }
    .piecewise d.name (shows all d.top d.active) (d.parts.map Eqn.text)

/-- `add_constraint`, `add_global_expression`, `add_objective` and an active
`_add_postprocessed` (latex_backend_model.py:377-385,434-444,471-517,
backend_model.py:215-404). -/
def addEquations (all : Bool) (s : State) (d : Decl) : State :=
  if d.active then
    setString { s with data := addToDataset s.data d.group d.name (equationRefs d) }
      d.group d.name (shows all (equationsValid d) d.active) (equationTexts all d)
  else s

/-- `add_parameter`, `add_lookup` (latex_backend_model.py:357-375, backend_model.py:125-165); a
deactivated one is skipped by `_load_inputs` (backend_model.py:660-668). -/
def addInput (s : State) (d : Decl) : State :=
  if d.active then { s with data := put s.data d.name ⟨some d.group, []⟩ } else s

/-- `add_<group>`. -/
def add (all : Bool) (s : State) (d : Decl) : State :=
  match d.group with
  | .parameters => addInput s d
  | .lookups => addInput s d
  | .variables => addVariable all s d
  | .piecewise => addPiecewise all s d
  | .postprocessed =>
      if d.active then addEquations all s d else { s with dead := s.dead ++ [d.name] }
  | .constraints => addEquations all s d
  | .globalExpressions => addEquations all s d
  | .objectives => addEquations all s d

/-- `delete_component` (latex_backend_model.py:541-545). -/
def delete (s : State) (g : Grp) (n : String) : State :=
  { s with data := s.data.filter (fun e => !(e.1 == n && e.2.group == some g)) }

/-- The calls on the backend of a document. -/
inductive Op where
  | add (d : Decl)
  | delete (g : Grp) (n : String)
  deriving DecidableEq, Repr

def step (all : Bool) (s : State) : Op → State
  | .add d => add all s d
  | .delete g n => delete s g n

def run (all : Bool) (ops : List Op) : State := ops.foldl (step all) State.empty

/-- `add_optimisation_components` and `add_postprocessed_arrays`, given the definitions in the order
in which they are added (`Registry.inputCalls`, `Registry.componentCalls`, then postprocessed). -/
def added (all : Bool) (ds : List Decl) : State := ds.foldl (add all) State.empty

/-- `_dataset.assign(postprocessed)` (math_documentation.py:37-38): the null arrays of deactivated
postprocessed expressions are written over whatever has their name. -/
def finish (s : State) : State :=
  { s with data := s.dead.foldl (fun d n => put d n ⟨none, []⟩) s.data, dead := [] }

/-- `MathDocumentation(model, include)` (math_documentation.py:31-38). -/
def build (all : Bool) (ds : List Decl) : State := finish (added all ds)

/-- `uses` (latex_backend_model.py:565-572). -/
def usesOf (s : State) (n : String) : List String :=
  (s.data.filter (fun e => e.2.usedIn.contains n)).map Prod.fst

/-- Python's `sorted` of strings: insertion. -/
def insertName (n : String) : List String → List String
  | [] => [n]
  | m :: r => if n < m then n :: m :: r else m :: insertName n r

def sortNames (l : List String) : List String := l.foldr insertName []

/-- Whether a group lists inputs. -/
def isInput : Grp → Bool
  | .parameters => true
  | .lookups => true
  | _ => false

/-- `self.math_strings[group][name]` (a `defaultdict`). -/
def stringOf (s : State) (g : Grp) (n : String) : Option (List String) :=
  match s.strings.lookup (g, n) with
  | some t => t
  | none => none

/-- The condition of latex_backend_model.py:591-593. -/
def listed (s : State) (g : Grp) (n : String) (e : Entry) : Bool :=
  (stringOf s g n).isSome || (isInput g && !e.usedIn.isEmpty)

/-- A component in the document. -/
structure Item where
  name : String
  label : String
  text : Option (List String)
  usedIn : List String
  uses : List String
  deriving DecidableEq, Repr

/-- The labels of objectives (latex_backend_model.py:611-615). -/
def labelOf (objective : String) (g : Grp) (n : String) : String :=
  match g with
  | .objectives => if n = objective then n ++ " (active)" else n ++ " (inactive)"
  | _ => n

/-- One element of a component list (latex_backend_model.py:576-589). -/
def itemOf (s : State) (objective : String) (g : Grp) (n : String) : Item :=
  ⟨n, labelOf objective g n, stringOf s g n,
    sortNames ((match s.data.lookup n with | some e => e.usedIn | none => []).filter (· ≠ n)),
    sortNames ((usesOf s n).filter (· ≠ n))⟩

/-- The component list of a group (latex_backend_model.py:574-594). -/
def itemsOf (s : State) (objective : String) (g : Grp) : List Item :=
  (sortNames ((s.data.filter (fun e => e.2.group == some g && listed s g e.1 e.2)).map
    Prod.fst)).map (itemOf s objective g)

def groups : List Grp :=
  [.objectives, .constraints, .piecewise, .globalExpressions, .variables, .postprocessed,
    .parameters, .lookups]

/-- Whether a group has a heading (latex_backend_model.py:605-610). -/
def headed (s : State) (g : Grp) : Bool :=
  s.data.any (fun e => e.2.group == some g) &&
    (!isInput g || s.data.any (fun e => e.2.group == some g && listed s g e.1 e.2))

/-- `generate_math_doc` (latex_backend_model.py:542-618). -/
def document (s : State) (objective : String) : List (Grp × List Item) :=
  (groups.filter (headed s)).map (fun g => (g, itemsOf s objective g))

/-- How `write` can fail. -/
inductive Failure where
  | valueError | modelError
  deriving DecidableEq, Repr

/-- `str.removeprefix(".")`. -/
def lessDot : List Char → List Char
  | '.' :: r => r
  | l => l

/-- The format of a document (math_documentation.py:86-96); `suffix` is `Path(filename).suffix`
of the file to be written, if any. -/
def formatOf (suffix format : Option String) : Option String :=
  match format with
  | some f => some f
  | none => match suffix with
    | some x => some (String.ofList (lessDot x.toList))
    | none => none

/-- `MathDocumentation.write` (math_documentation.py:58-104) up to rendering: the format used. -/
def write (suffix format : Option String) (mkdocs : Bool) : Except Failure String :=
  match formatOf suffix format with
  | none => .error .valueError
  | some f =>
      if ["tex", "rst", "md"].contains f then
        if mkdocs && f != "md" then .error .modelError else .ok f
      else .error .valueError

end MathDoc
end Calliope
