import Verif.Model.Build

/-!
# Model of piecewise constraints

Source: `/repo/src/calliope/backend/backend_model.py:912-991` (`add_piecewise_constraint`),
`/repo/src/calliope/backend/pyomo_backend_model.py:504-522` and
`/repo/src/calliope/backend/gurobi_backend_model.py:393-413` (`_to_piecewise_constraint`).

Simplifications: `references` are left out.  The two expressions have no sub-expressions and slices, which the
definition cannot give (backend_model.py:942-945).  Values with other dimensions than `breakpoints` and those of
`foreach` are an error (numpy raises, `where` cannot be broadcast).  Whether the solver interface accepts a list of
breakpoints and a list of values is the parameter `accepts`.
-/

namespace Calliope
namespace Piecewise

open Grid Infix Expr Expand Build

variable {V : Type}

/-- A piecewise constraint as in the math definition. -/
structure Definition (V : Type) where
  foreach : List String
  top : Cond
  active : Bool
  x : Ex V
  y : Ex V
  xValues : String
  yValues : String

/-- One item: `y` is the piecewise linear function of `x` through the points. -/
structure Item (V : Type) where
  x : Option V
  y : Option V
  points : List (V × V)

/-- `definition.x_expression` evaluated under the mask and the parameter `definition.x_values`
(backend_model.py:941-966). -/
def axis [Zero V] [Add V] (E : Expr.Env V) (m : Arr Bool) (t : Ex V) (values : String) :
    Except Err (Arr (Option V) × Arr (Option V)) :=
  match evalExpression E (fun _ => none) (fun _ => none) m t with
  | .error e => .error e
  | .ok a =>
    match E.comp values with
    | none => .error .keyError
    | some c => if c.arr.dims.contains "breakpoints" then .ok (a, c.arr) else .error .backendError

/-- The values of an item along the breakpoints, less the missing ones: `pd.Series(vals).dropna()`
(pyomo_backend_model.py:507-508). -/
def column (E : Expr.Env V) (sets : List String) (c : List Label) (v : Arr (Option V)) : List V :=
  (E.coords "breakpoints").filterMap (fun l => v.val (pick ("breakpoints" :: sets) (l :: c) v.dims))

/-- Some item that the solver interface does not accept. -/
def refused (E : Expr.Env V) (accepts : List V → List V → Bool) (m : Arr Bool) (xs ys : Arr (Option V)) : Bool :=
  anyCell E.coords ⟨m.dims, fun c => m.val c && !accepts (column E m.dims c xs) (column E m.dims c ys)⟩

/-- `_apply_func(self._to_piecewise_constraint, where, ...)` (backend_model.py:968-983,792-802). -/
def items (E : Expr.Env V) (accepts : List V → List V → Bool) (m : Arr Bool) (x xs y ys : Arr (Option V)) :
    Except Err (Arr (Option (Item V))) :=
  if (xs.dims ++ ys.dims).all (fun d => d == "breakpoints" || m.dims.contains d) then
    if refused E accepts m xs ys then .error .backendError
    else .ok ⟨m.dims, fun c =>
      if m.val c then
        some ⟨x.val (pick m.dims c x.dims), y.val (pick m.dims c y.dims),
          (column E m.dims c xs).zip (column E m.dims c ys)⟩
      else none⟩
  else .error .valueError

/-- `add_piecewise_constraint` (backend_model.py:912-991); `none` if nothing is added. -/
def build [Zero V] [Add V] (W : Where.Env) (E : Expr.Env V) (accepts : List V → List V → Bool) (d : Definition V) :
    Except Err (Option (Arr (Option (Item V)))) :=
  if d.foreach.contains "breakpoints" then .error .backendError
  else if d.active then
    match Where.topLevel W d.foreach d.top with
    | .error e => .error e
    | .ok m =>
      if anyCell W.coords m then
        match axis E m d.x d.xValues with
        | .error e => .error e
        | .ok (x, xs) =>
          match axis E m d.y d.yValues with
          | .error e => .error e
          | .ok (y, ys) =>
            match items E accepts m x xs y ys with
            | .error e => .error e
            | .ok a => .ok (some a)
      else .ok (some (scalar none))
  else .ok none

end Piecewise
end Calliope
