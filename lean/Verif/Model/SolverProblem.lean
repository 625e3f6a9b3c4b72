/-!
# Model of the optimisation problem behind a backend

Source: `/repo/src/calliope/backend/pyomo_backend_model.py:59-114,167-176,195-236,417-425,513-534`,
`/repo/src/calliope/backend/gurobi_backend_model.py:90-120,287-303,390-413`,
`/repo/src/calliope/backend/backend_model.py:705-738,804-846`.

A backend holds each component as an array of solver objects (`_dataset`); the solver works on the objects that are
in the problem (`_instance`).  Here both are kept, for the components that consist of solver objects: variables,
constraints and piecewise constraints.  `P` is what an object says.

Simplifications: what evaluating a definition gives is a parameter of each call (`made`: what the objects say that are
created, in turn; `fails`: an exception is raised after that).  The name of a component is known to the math if it is
in the dataset.  Parameters, global expressions and objectives are left out (see `Registry` and `SolverObjects`).
-/

namespace Calliope
namespace Problem

inductive Group where
  | variables | constraints | piecewise
  deriving DecidableEq, Repr

/-- A solver object: which one it is, and what it says. -/
structure Obj (P : Type) where
  id : Nat
  says : P
  deriving DecidableEq, Repr

/-- An entry of `_dataset`: `attrs["obj_type"]` and the objects in the array. -/
structure Entry (P : Type) where
  group : Group
  objs : List (Obj P)

variable {P : Type}

/-- New objects. -/
def create (next : Nat) : List P → List (Obj P)
  | [] => []
  | p :: ps => ⟨next, p⟩ :: create (next + 1) ps

/-- The calls a user can make, directly or by `update_input` (backend_model.py:1221-1281), which deletes and adds what
depends on an input. -/
inductive Call (P : Type) where
  | add (g : Group) (n : String) (made : List P) (fails : Bool)
  | delete (g : Group) (n : String)

/-! ### Pyomo -/

/-- The backend with Pyomo: `_dataset`, and the lists in the dictionaries of `_instance`
(pyomo_backend_model.py:169-174). -/
structure Pyomo (P : Type) where
  dataset : List (String × Entry P)
  lists : List ((Group × String) × List (Obj P))
  next : Nat

/-- All objects that the solver is given. -/
def Pyomo.problem (s : Pyomo P) : List (Obj P) := s.lists.flatMap Prod.snd

def Pyomo.empty : Pyomo P := ⟨[], [], 0⟩

/-- `del component_dict[key]`. -/
def dropList (k : Group × String) (l : List ((Group × String) × List (Obj P))) :
    List ((Group × String) × List (Obj P)) := l.filter (fun x => x.1 ≠ k)

/-- `name not in self._dataset or self._dataset[name].isnull().all()` (pyomo_backend_model.py:109). -/
def noObjects (d : List (String × Entry P)) (n : String) : Bool :=
  match d.lookup n with
  | none => true
  | some e => e.objs.isEmpty

/-- `add_<group>` with the wrapper (pyomo_backend_model.py:96-112) around the check of the name
(backend_model.py:804-846), the creation of objects, each of which is appended to the list (e.g.
pyomo_backend_model.py:529), and the registration (backend_model.py:705-738). -/
def Pyomo.add (s : Pyomo P) (g : Group) (n : String) (made : List P) (fails : Bool) : Pyomo P :=
  if (s.lists.map Prod.fst).contains (g, n) then s
  else if (s.dataset.lookup n).isSome then
    if noObjects s.dataset n then s else { s with lists := s.lists ++ [((g, n), [])] }
  else if fails then { s with next := s.next + made.length }
  else if made.isEmpty then { s with dataset := s.dataset ++ [(n, ⟨g, []⟩)] }
  else
    ⟨s.dataset ++ [(n, ⟨g, create s.next made⟩)], s.lists ++ [((g, n), create s.next made)], s.next + made.length⟩

/-- `delete_component` (pyomo_backend_model.py:417-425). -/
def Pyomo.delete (s : Pyomo P) (g : Group) (n : String) : Pyomo P :=
  { s with
    lists := dropList (g, n) s.lists
    dataset := if (s.dataset.lookup n).map Entry.group = some g then s.dataset.filter (fun x => x.1 ≠ n)
      else s.dataset }

def Pyomo.step (s : Pyomo P) : Call P → Pyomo P
  | .add g n made fails => s.add g n made fails
  | .delete g n => s.delete g n

def Pyomo.run (s : Pyomo P) : List (Call P) → Pyomo P
  | [] => s
  | c :: cs => (s.step c).run cs

/-! ### Gurobi -/

/-- The backend with Gurobi: `_dataset`, and the objects of `_instance`. -/
structure Gurobi (P : Type) where
  dataset : List (String × Entry P)
  problem : List (Obj P)
  next : Nat

def Gurobi.empty : Gurobi P := ⟨[], [], 0⟩

/-- `add_<group>`: the check of the name (backend_model.py:804-846), `addVar`, `addConstr` or `addGenConstrPWL` for each
object (gurobi_backend_model.py:90-120,393-413), and the registration. -/
def Gurobi.add (s : Gurobi P) (g : Group) (n : String) (made : List P) (fails : Bool) : Gurobi P :=
  if (s.dataset.lookup n).isSome then s
  else if fails then { s with problem := s.problem ++ create s.next made, next := s.next + made.length }
  else
    ⟨s.dataset ++ [(n, ⟨g, create s.next made⟩)], s.problem ++ create s.next made, s.next + made.length⟩

/-- `self._instance.remove(obj)` for each object (gurobi_backend_model.py:294-300,390-391). -/
def removeAll (objs : List (Obj P)) (problem : List (Obj P)) : List (Obj P) :=
  problem.filter (fun o => !(objs.map Obj.id).contains o.id)

/-- `delete_component` (gurobi_backend_model.py:287-303): only variables and constraints are removed. -/
def Gurobi.delete (s : Gurobi P) (g : Group) (n : String) : Gurobi P :=
  match s.dataset.lookup n with
  | none => s
  | some e =>
    if e.group = g then
      { s with
        problem := if g = .variables ∨ g = .constraints then removeAll e.objs s.problem else s.problem
        dataset := s.dataset.filter (fun x => x.1 ≠ n) }
    else s

def Gurobi.step (s : Gurobi P) : Call P → Gurobi P
  | .add g n made fails => s.add g n made fails
  | .delete g n => s.delete g n

def Gurobi.run (s : Gurobi P) : List (Call P) → Gurobi P
  | [] => s
  | c :: cs => (s.step c).run cs

end Problem
end Calliope
