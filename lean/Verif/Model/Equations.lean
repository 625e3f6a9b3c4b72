/-!
# Model of evaluating the equations of one component

Source: `/repo/src/calliope/backend/backend_model.py:423-471` (`_eval_equations`),
`/repo/src/calliope/backend/parsing.py:262-274,340-384`.

Index items of the component's `foreach` are of type `ι`; conditions may have further dimensions,
whose items are of type `κ`.  The where masks and expression arrays themselves are given.
-/

namespace Calliope
namespace Equations

variable {ι κ V : Type}

/-- One equation after parsing: its own condition (already including those of its sub-expressions and
slices) and the array its expression evaluates to, `none` for NaN. -/
structure Eqn (ι κ V : Type) where
  cond : ι → κ → Bool
  expr : ι → Option V

inductive Failure where
  | overlap        -- `_raise_idx_overlap_error` (backend_model.py:462-471)
  | incomplete     -- `raise_error_on_where_expr_mismatch` (parsing.py:375-384)
  deriving DecidableEq, Repr

/-- `drop_dims_not_in_foreach` (parsing.py:262-274): an item is kept if the condition holds for any
item of the surplus dimensions. -/
def dropDims (ks : List κ) (w : ι → κ → Bool) : ι → Bool := fun i => ks.any (w i)

/-- `evaluate_where(..., initial_where=top_level_where)` (backend_model.py:437-444): the equation's
condition and the component's. -/
def eqWhere (ks : List κ) (top : ι → κ → Bool) (e : Eqn ι κ V) : ι → Bool :=
  dropDims ks (fun i k => top i k && e.cond i k)

/-- `component_da.fillna(component_setter(name, where, expr))` (backend_model.py:455-456): setters give
nothing outside `where` (pyomo_backend_model.py:217-240). -/
def fill (w : ι → Bool) (expr : ι → Option V) (comp : ι → Option V) : ι → Option V := fun i =>
  match comp i with
  | some v => some v
  | none => if w i then expr i else none

/-- The loop of `_eval_equations` (backend_model.py:436-456) over the index items `is`. -/
def loop (is : List ι) (ks : List κ) (top : ι → κ → Bool) :
    List (Eqn ι κ V) → (ι → Option V) → Except Failure (ι → Option V)
  | [], comp => .ok comp
  | e :: es, comp =>
      if is.any (eqWhere ks top e) then
        if is.any (fun i => eqWhere ks top e i && (comp i).isSome) then .error .overlap
        else if is.any (fun i => eqWhere ks top e i && (e.expr i).isNone) then .error .incomplete
        else loop is ks top es (fill (eqWhere ks top e) e.expr comp)
      else loop is ks top es comp

/-- `_eval_equations` (backend_model.py:423-460).  The last step, which replaces an array of nothing
but NaN by a scalar NaN, does not change any item and is left out. -/
def evalEquations (is : List ι) (ks : List κ) (top : ι → κ → Bool) (es : List (Eqn ι κ V)) :
    Except Failure (ι → Option V) :=
  loop is ks top es (fun _ => none)

end Equations
end Calliope
