import Verif.Model.Where
import Verif.Model.Expand

/-!
# Model of adding a component to the optimisation model

Source: `/repo/src/calliope/backend/backend_model.py:140-300,401-471`,
`/repo/src/calliope/backend/pyomo_backend_model.py:190-250`, `/repo/src/calliope/backend/parsing.py:316-371`.

This joins the models of `where` strings (`Model/Where.lean`), of the expansion of equations
(`Model/Expand.lean`) and of expression strings (`Model/Expr.lean`).

Simplifications: `references` are left out; the items of a constraint are its two compared values and the
operator; the last step of `_eval_equations`, which replaces an array of nothing but NaN by a scalar NaN, does
not change any item and is left out.
-/

namespace Calliope
namespace Build

open Grid Infix Expr Expand

variable {V : Type}

/-- Parsed `where` strings. -/
abbrev Cond := Tree Where.Op Where.Leaf

/-- A global expression, constraint or objective as in the math definition. -/
structure Component (V : Type) where
  foreach : List String
  top : Cond
  defn : Definition V Cond

/-- One item of a constraint. -/
structure Cell (V : Type) where
  lhs : Option V
  op : String
  rhs : Option V

/-- `component_da.fillna(to_fill)` (backend_model.py:456). -/
def fillna {R : Type} (acc a : Arr (Option R)) : Arr (Option R) :=
  zip (fun v x => match v with
    | some y => some y
    | none => x) acc a

/-- `component_da.where(where).notnull().any()` (backend_model.py:450). -/
def overlaps {R : Type} (coords : String → List Label) (acc : Arr (Option R)) (m : Arr Bool) : Bool :=
  anyCell coords (zip (fun v b => v.isSome && b) acc m)

/-- The loop of `_eval_equations` (backend_model.py:437-456). -/
def buildLoop {R : Type} (W : Where.Env) (c : Component V)
    (setter : Equation V Cond → Arr Bool → Except Err (Arr (Option R))) :
    Arr (Option R) → List (Equation V Cond) → Except Err (Arr (Option R))
  | acc, [] => .ok acc
  | acc, e :: es =>
    match Where.equationMask W c.foreach c.top e.wheres with
    | .error x => .error x
    | .ok none => buildLoop W c setter acc es
    | .ok (some m) =>
      if overlaps W.coords acc m then .error .backendError
      else match setter e m with
        | .error x => .error x
        | .ok a => buildLoop W c setter (fillna acc a) es

/-- `_add_global_expression` of an evaluated equation (pyomo_backend_model.py:218-227). -/
def setExpression [Zero V] [Add V] (E : Expr.Env V) (e : Equation V Cond) (m : Arr Bool) :
    Except Err (Arr (Option V)) :=
  match e.body with
  | .arith t =>
    match evalExpression E (fun n => e.slices.lookup n) (fun n => e.subs.lookup n) m t with
    | .error x => .error x
    | .ok a => .ok (maskArr m a)
  | .cmp _ _ _ => .error .valueError

/-- `_add_constraint` of an evaluated equation (pyomo_backend_model.py:229-243). -/
def setConstraint [Zero V] [Add V] (E : Expr.Env V) (e : Equation V Cond) (m : Arr Bool) :
    Except Err (Arr (Option (Cell V))) :=
  match e.body with
  | .cmp l o r =>
    match evalComparison E (fun n => e.slices.lookup n) (fun n => e.subs.lookup n) m l r with
    | .error x => .error x
    | .ok a => .ok (map (fun c => c.map (fun p => ⟨p.1, o, p.2⟩)) a)
  | .arith _ => .error .valueError

/-- `add_global_expression`, `add_constraint`: top-level condition, then the equations
(backend_model.py:215-298,423-460). -/
def build {R : Type} (W : Where.Env) (enum : List String → List String) (c : Component V)
    (setter : Equation V Cond → Arr Bool → Except Err (Arr (Option R))) :
    Except Err (Arr (Option R)) :=
  match Where.topLevel W c.foreach c.top with
  | .error x => .error x
  | .ok t =>
    if anyCell W.coords t then
      match parseEquations enum c.defn with
      | .error x => .error x
      | .ok es => buildLoop W c setter ⟨c.foreach, fun _ => none⟩ es
    else .ok (scalar none)

def buildExpression [Zero V] [Add V] (W : Where.Env) (E : Expr.Env V) (enum : List String → List String)
    (c : Component V) : Except Err (Arr (Option V)) :=
  build W enum c (setExpression E)

def buildConstraint [Zero V] [Add V] (W : Where.Env) (E : Expr.Env V) (enum : List String → List String)
    (c : Component V) : Except Err (Arr (Option (Cell V))) :=
  build W enum c (setConstraint E)

/-- The items of a variable (backend_model.py:150-200, pyomo_backend_model.py:190-216): those of its mask. -/
def variableMask (W : Where.Env) (foreach : List String) (top : Cond) : Except Err (Arr Bool) :=
  Where.topLevel W foreach top

end Build
end Calliope
