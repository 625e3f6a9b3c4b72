import Verif.Model.MathText

/-!
# Model of building the whole optimisation problem

Source: `/repo/src/calliope/backend/backend_model.py:162-353,625-641,705-737`: variables, then global expressions, then
constraints, then objectives; every component sees the inputs and what was built before it.

Simplifications: decision variables stand for the values `x` that a solution gives them, so that an expression is a
number; the names of active components are distinct (math_schema.py:422-442), so no component is built twice; entries of
inactive variables (backend_model.py:173-184) are in the first state; no piecewise constraints.
-/

namespace Calliope
namespace Assemble

open Grid Expr Build BaseMath

variable {V : Type} [Field V]

/-- `inputs` and the backend dataset, as conditions and as expressions see them. -/
structure State (V : Type) where
  W : Where.Env
  E : Expr.Env V

/-- `_add_to_dataset` (backend_model.py:705-737). -/
def State.put (s : State V) (n : String) (a : Arr (Option V)) (default : Option V) : State V where
  W := { s.W with result := fun m => if m = n then some (map Option.isSome a) else s.W.result m }
  E := { s.E with comp := fun m => if m = n then some ⟨a, default⟩ else s.E.comp m }

/-- The values of the items of a variable. -/
def valued (x : List Label → V) (b : Arr (Option (Limits V))) : Arr (Option V) :=
  ⟨b.dims, fun c => (b.val c).map (fun _ => x c)⟩

/-- What a problem is built with: `x`, the values of decision variables; `default`, the defaults of the definitions of
variables and global expressions; `enum`, the order in which sets are traversed. -/
structure Given (V : Type) where
  x : String → List Label → V
  default : String → Option V
  enum : List String → List String

/-- `add_variable` (backend_model.py:162-213). -/
def addVariable (g : Given V) (s : State V) (v : Variable V) : Except Err (State V) :=
  match buildVariable s.W s.E v with
  | .error e => .error e
  | .ok b => .ok (s.put v.name (valued (g.x v.name) b) (g.default v.name))

/-- `add_global_expression` (backend_model.py:215-256). -/
def addGlobal (g : Given V) (s : State V) (c : Component V) : Except Err (State V) :=
  match buildExpression s.W s.E g.enum c with
  | .error e => .error e
  | .ok a => .ok (s.put c.defn.name a (g.default c.defn.name))

/-- A loop of `add_optimisation_components` over variables or global expressions (backend_model.py:630-635). -/
def addAll {α : Type} (add : State V → α → Except Err (State V)) : State V → List α → Except Err (State V)
  | s, [] => .ok s
  | s, c :: cs => match add s c with
    | .error e => .error e
    | .ok s' => addAll add s' cs

/-- A loop over constraints or objectives: no expression may name them, so what is built is only kept. -/
def keepAll {α β : Type} (make : α → Except Err β) : List α → Except Err (List β)
  | [] => .ok []
  | c :: cs => match make c with
    | .error e => .error e
    | .ok b => match keepAll make cs with
      | .error e => .error e
      | .ok bs => .ok (b :: bs)

/-- The components of an optimisation problem, in the order in which they are added. -/
structure Math (V : Type) where
  vars : List (Variable V)
  globals : List (Component V)
  constraints : List (Component V)
  objectives : List (Component V)

/-- A built problem. -/
structure Problem (V : Type) where
  state : State V
  constraints : List (Arr (Option (Cell V)))
  objectives : List (Arr (Option V))

/-- `add_optimisation_components` (backend_model.py:625-641). -/
def assemble (g : Given V) (M : Math V) (s : State V) : Except Err (Problem V) :=
  match addAll (addVariable g) s M.vars with
  | .error e => .error e
  | .ok s1 => match addAll (addGlobal g) s1 M.globals with
    | .error e => .error e
    | .ok s2 => match keepAll (buildConstraint s2.W s2.E g.enum) M.constraints with
      | .error e => .error e
      | .ok cs => match keepAll (buildExpression s2.W s2.E g.enum) M.objectives with
        | .error e => .error e
        | .ok os => .ok ⟨s2, cs, os⟩

/-- The math that was read from the math files, as far as the problem is built from it. -/
def ofRead (M : MathText.Math) : Math Rat where
  vars := M.vars
  globals := M.globals
  constraints := M.constraints
  objectives := M.objectives

end Assemble
end Calliope
