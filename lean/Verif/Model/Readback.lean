import Mathlib.Algebra.Order.Ring.Rat

/-!
# Model of reading values out of a solved backend

Source: `/repo/src/calliope/backend/backend_model.py:768-802,1096-1202,1392-1447`,
`/repo/src/calliope/backend/pyomo_backend_model.py:301-343,628-673`,
`/repo/src/calliope/backend/gurobi_backend_model.py:168-213,453-487`.

Of the solver libraries the following is taken as given.  The value of a Pyomo object raises `ValueError` if some
variable in it has no value.  `LinExpr.getValue` and `Var.x` raise `AttributeError` if the model has no solution, and a
Gurobi expression with products of variables is no `LinExpr`.  The text of an object with a variable in it does not
read as a number.  `None` among the values of variables becomes null (`fillna(np.nan)`, backend_model.py:799).
-/

namespace Calliope
namespace Readback

/-- An element of an array of expressions: a number, a variable, or a sum of a constant, of multiples of variables and of
multiples of products of variables. -/
inductive Obj where
  | num (q : Rat)
  | var (v : Nat)
  | sum (c : Rat) (lin : List (Rat × Nat)) (quad : List (Rat × Nat × Nat))
  deriving DecidableEq, Repr

/-- The solver's values of the variables. -/
abbrev Values := Nat → Option Rat

def linear (σ : Values) : List (Rat × Nat) → Option Rat
  | [] => some 0
  | (q, v) :: r => match σ v, linear σ r with
    | some x, some y => some (q * x + y)
    | _, _ => none

def quadratic (σ : Values) : List (Rat × Nat × Nat) → Option Rat
  | [] => some 0
  | (q, v, w) :: r => match σ v, σ w, quadratic σ r with
    | some x, some y, some z => some (q * x * y + z)
    | _, _, _ => none

/-- `expr() if isinstance(expr, PyomoObject) else expr` (pyomo_backend_model.py:644-647); `none` is `ValueError`. -/
def pyomoValue (σ : Values) : Obj → Option Rat
  | .num q => some q
  | .var v => σ v
  | .sum c l q => match linear σ l, quadratic σ q with
    | some x, some y => some (c + x + y)
    | _, _ => none

/-- `_from_gurobi_expr` (gurobi_backend_model.py:467-487); `none` is `AttributeError` or `TypeError`.  -/
def gurobiValue (σ : Values) : Obj → Option Rat
  | .num q => some q
  | .var v => σ v
  | .sum c l [] => match linear σ l with
    | some x => some (c + x)
    | none => none
  | .sum _ _ (_ :: _) => none

variable {ι : Type}

/-- `_apply_func` with one array (backend_model.py:768-802): the function is called for the items that are not null, one
after the other; the first exception ends it. -/
def applyFunc (f : Obj → Option Rat) (a : ι → Option Obj) : List ι → Option (List (ι × Rat))
  | [] => some []
  | i :: is => match a i with
    | none => applyFunc f a is
    | some o => match f o, applyFunc f a is with
      | some x, some r => some ((i, x) :: r)
      | _, _ => none

/-- What is read: an array of numbers, or an array of the texts of the objects. -/
inductive Read (ι : Type) where
  | numbers (l : List (ι × Rat))
  | texts (l : List (ι × Obj))
  deriving DecidableEq, Repr

/-- The items that are not null. -/
def objects (a : ι → Option Obj) (is : List ι) : List (ι × Obj) :=
  is.filterMap (fun i => (a i).map (fun o => (i, o)))

/-- `_get_expression(as_backend_objs=False, eval_body=True)` (pyomo_backend_model.py:321-335,641-653,
gurobi_backend_model.py:192-213). -/
def getExpression (value : Obj → Option Rat) (is : List ι) (a : ι → Option Obj) : Read ι :=
  match applyFunc value a is with
  | some l => .numbers l
  | none => .texts (objects a is)

/-- `get_variable(as_backend_objs=False)` of Pyomo (pyomo_backend_model.py:301-311,655-673): variables without a value
are null. -/
def getVariable (σ : Values) (is : List ι) (a : ι → Option Nat) : List (ι × Rat) :=
  is.filterMap (fun i => match a i with
    | none => none
    | some v => (σ v).map (fun x => (i, x)))

/-- The text of an object read as a number: `astype(float)`. -/
def textAsNumber : Obj → Option Rat
  | .num q => some q
  | _ => none

def textsAsNumbers : List (ι × Obj) → Option (List (ι × Rat))
  | [] => some []
  | (i, o) :: r => match textAsNumber o, textsAsNumbers r with
    | some x, some l => some ((i, x) :: l)
    | _, _ => none

/-- `astype(float)` (backend_model.py:1435); `none` is `ValueError`. -/
def asFloat : Read ι → Option (List (ι × Rat))
  | .numbers l => some l
  | .texts l => textsAsNumbers l

/-- A component of the problem: the arrays of variables and of expressions (global expressions and objectives). -/
inductive Array (ι : Type) where
  | variables (a : ι → Option Nat)
  | expressions (a : ι → Option Obj)

/-- One array of the results. -/
def readOne (value : Obj → Option Rat) (σ : Values) (is : List ι) : Array ι → Option (List (ι × Rat))
  | .variables a => some (getVariable σ is a)
  | .expressions a => asFloat (getExpression value is a)

/-- `load_results` (backend_model.py:1406-1435) without shadow prices and postprocessing; `none` is `ValueError`. -/
def loadResults (value : Obj → Option Rat) (σ : Values) (is : List ι) :
    List (String × Array ι) → Option (List (String × List (ι × Rat)))
  | [] => some []
  | (n, a) :: r => match readOne value σ is a, loadResults value σ is r with
    | some l, some rest => some ((n, l) :: rest)
    | _, _ => none

end Readback
end Calliope
