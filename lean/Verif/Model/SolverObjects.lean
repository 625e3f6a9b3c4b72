/-!
# Model of objectives, variable bounds and fixed variables

Source: `/repo/src/calliope/backend/pyomo_backend_model.py:242-265,434-494,554-604`,
`/repo/src/calliope/backend/gurobi_backend_model.py:122-138,311-381,415-439`.

Objectives are solver objects with an `active` flag (Pyomo) or the one objective of the solver
model (Gurobi).  Index items of a variable array are of type `ι`; solver variables carry
bounds, the value from the last solve and the Pyomo flag `fixed`.
-/

namespace Calliope
namespace SolverObjects

/-- How a call ended. -/
inductive Result where
  | returned | raised
  deriving DecidableEq, Repr

/-! ## Objectives -/

/-- Pyomo backend: the objective objects with their `active` flags, `self.objective` and
`config.objective`. -/
structure Objectives where
  objs : List (String × Bool)
  current : String
  config : String
  deriving DecidableEq, Repr

/-- `self.objectives[name].item()`: is there an object?  (A missing entry raises `KeyError`, an entry
without an object `AttributeError`.) -/
def Objectives.has (s : Objectives) (n : String) : Bool := (s.objs.map Prod.fst).contains n

/-- `.activate()` or `.deactivate()` on one object. -/
def switch (n : String) (b : Bool) : List (String × Bool) → List (String × Bool)
  | [] => []
  | (m, a) :: r => (if m = n then (m, b) else (m, a)) :: switch n b r

/-- `add_objective` for an active definition that gives an object, ending in `_add_objective`
(pyomo_backend_model.py:242-255).  An existing name raises. -/
def addObjective (s : Objectives) (n : String) : Objectives × Result :=
  if s.has n then (s, .raised)
  else ({ s with objs := s.objs ++ [(n, decide (n = s.current))] }, .returned)

/-- `set_objective` (pyomo_backend_model.py:257-265). -/
def setObjective (s : Objectives) (n : String) : Objectives × Result :=
  if s.has s.current then
    let s1 := { s with objs := switch s.current false s.objs }
    if s1.has n then
      ({ objs := switch n true s1.objs, current := n, config := n }, .returned)
    else (s1, .raised)
  else (s, .raised)

/-- `delete_component(name, "objectives")` (pyomo_backend_model.py:417-425), also the first half of a
rebuild after `update_input`. -/
def deleteObjective (s : Objectives) (n : String) : Objectives :=
  { s with objs := s.objs.filter (fun e => e.1 ≠ n) }

inductive ObjOp where
  | add (n : String) | set (n : String) | delete (n : String)
  deriving DecidableEq, Repr

def objStep (s : Objectives) : ObjOp → Objectives × Result
  | .add n => addObjective s n
  | .set n => setObjective s n
  | .delete n => (deleteObjective s n, .returned)

/-- A history of calls, failing ones included. -/
def objRun (s : Objectives) : List ObjOp → Objectives
  | [] => s
  | o :: os => objRun (objStep s o).1 os

/-- A new backend: `self.objective = self.config.objective`. -/
def noObjectives (configured : String) : Objectives := ⟨[], configured, configured⟩

/-- Gurobi backend: names of the expressions that can be objectives, the one set in the solver model,
`self.objective` and `config.objective`. -/
structure GObjectives where
  exprs : List String
  inSolver : Option String
  current : String
  config : String
  deriving DecidableEq, Repr

/-- `_add_objective` (gurobi_backend_model.py:122-129). -/
def gAddObjective (s : GObjectives) (n : String) : GObjectives × Result :=
  if s.exprs.contains n then (s, .raised)
  else ({ s with
      exprs := s.exprs ++ [n]
      inSolver := if n = s.current then some n else s.inSolver }, .returned)

/-- `set_objective` (gurobi_backend_model.py:131-137). -/
def gSetObjective (s : GObjectives) (n : String) : GObjectives × Result :=
  if s.exprs.contains n then ({ s with inSolver := some n, current := n }, .returned)
  else (s, .raised)

/-- `delete_component` (gurobi_backend_model.py:287-303): the solver model keeps its objective. -/
def gDeleteObjective (s : GObjectives) (n : String) : GObjectives :=
  { s with exprs := s.exprs.filter (fun e => e ≠ n) }

def gStep (s : GObjectives) : ObjOp → GObjectives × Result
  | .add n => gAddObjective s n
  | .set n => gSetObjective s n
  | .delete n => (gDeleteObjective s n, .returned)

def gRun (s : GObjectives) : List ObjOp → GObjectives
  | [] => s
  | o :: os => gRun (gStep s o).1 os

/-! ## Variables -/

/-- A solver variable. -/
structure Var (V : Type) where
  lb : V
  ub : V
  value : Option V
  fixed : Bool
  deriving DecidableEq, Repr

/-- A variable array: `none` where the variable is not defined. -/
abbrev Arr (ι V : Type) := ι → Option (Var V)

variable {ι V : Type}

/-- `_apply_func(self._update_pyomo_variable, variable_da.notnull() & new.notnull(), ...)`
(pyomo_backend_model.py:466-473), `setattr(orig, "lb", new)`. -/
def setLb (a : Arr ι V) (new : ι → Option V) : Arr ι V := fun j =>
  match a j, new j with
  | some v, some x => some { v with lb := x }
  | o, _ => o

/-- The same for `"ub"`. -/
def setUb (a : Arr ι V) (new : ι → Option V) : Arr ι V := fun j =>
  match a j, new j with
  | some v, some x => some { v with ub := x }
  | o, _ => o

/-- `update_variable_bounds` (pyomo_backend_model.py:434-476, gurobi_backend_model.py:311-355): first
`min`, then `max`.  `minParam`, `maxParam`: the bound in the math is the name of a parameter.
New values are taken to be broadcast over the variable's dimensions. -/
def updateBounds (minParam maxParam : Bool) (a : Arr ι V) (min max : Option (ι → Option V)) :
    Arr ι V × Result :=
  match min with
  | some new =>
      if minParam then (a, .raised)
      else match max with
        | some new' => if maxParam then (setLb a new, .raised) else (setUb (setLb a new) new', .returned)
        | none => (setLb a new, .returned)
  | none => match max with
      | some new' => if maxParam then (a, .raised) else (setUb a new', .returned)
      | none => (a, .returned)

/-- `where_da` (pyomo_backend_model.py:481-484): a NaN in the selection counts as not selected. -/
def chosen (where_ : Option (ι → Option Bool)) (j : ι) : Bool :=
  match where_ with
  | none => true
  | some w => (w j).getD false

/-- `.fix()` and `.unfix()` of a Pyomo variable: only the flag changes. -/
def setFixed (b : Bool) (v : Var V) : Var V := { v with fixed := b }

/-- Fixing item after item (`_fix_pyomo_variable`, pyomo_backend_model.py:576-593); stops at the first
variable without a value. -/
def fixLoop [DecidableEq ι] (sel : ι → Bool) : List ι → Arr ι V → Arr ι V × Result
  | [], a => (a, .returned)
  | j :: js, a =>
      if sel j then
        match a j with
        | none => fixLoop sel js a
        | some v => match v.value with
          | none => (a, .raised)
          | some _ => fixLoop sel js (fun k => if k = j then some (setFixed true v) else a k)
      else fixLoop sel js a

/-- `fix_variable` with Pyomo (pyomo_backend_model.py:478-485) over the items `is` of the array. -/
def fixVariable [DecidableEq ι] (is : List ι) (a : Arr ι V) (where_ : Option (ι → Option Bool)) :
    Arr ι V × Result :=
  fixLoop (chosen where_) is a

/-- `unfix_variable` with Pyomo (pyomo_backend_model.py:487-494). -/
def unfixVariable (a : Arr ι V) (where_ : Option (ι → Option Bool)) : Arr ι V := fun j =>
  match a j with
  | none => none
  | some v => if chosen where_ j then some (setFixed false v) else some v

/-- `_fix_gurobi_variable` (gurobi_backend_model.py:427-439): both bounds become the value. -/
def gFixOne (v : Var V) : Var V :=
  match v.value with
  | some x => { v with lb := x, ub := x }
  | none => v

/-- `fix_variable` with Gurobi (gurobi_backend_model.py:357-373); `optimal`: the solver model has just
been solved to optimality, so every variable has a value. -/
def gFixVariable (optimal : Bool) (a : Arr ι V) (where_ : Option (ι → Option Bool)) :
    Arr ι V × Result :=
  if optimal then
    (fun j => match a j with
      | none => none
      | some v => if chosen where_ j then some (gFixOne v) else some v, .returned)
  else (a, .raised)

/-- `unfix_variable` with Gurobi (gurobi_backend_model.py:375-381). -/
def gUnfixVariable (a : Arr ι V) (_where : Option (ι → Option Bool)) : Arr ι V × Result :=
  (a, .raised)

end SolverObjects
end Calliope
