import Mathlib.Data.List.Dedup
import Verif.Model.BaseMath

/-!
# Checks of the input data

Source: `/repo/src/calliope/backend/backend_model.py:123,597-623`, `/repo/src/calliope/schemas/math_schema.py:309-319`
and `/repo/src/calliope/exceptions.py:42-109`.

Simplification: of the text of a warning or an error, only the list of messages is kept, without bullet points.
-/

namespace Calliope
namespace BaseMath

open Grid Infix Expr Expand Build

/-- A check (math_schema.py:309-319). -/
structure Check where
  name : String
  cond : Cond
  message : String
  raises : Bool
  active : Bool := true

/-- Whether a check has something to report (backend_model.py:611-619). -/
def fires (W : Where.Env) (c : Check) : Except Err Bool :=
  match Where.evalTree W c.cond with
  | .error x => .error x
  | .ok a => .ok (anyCell W.coords a && anyCell W.coords (zip (· && ·) a W.matrix))

/-- The messages of the checks that have something to report, as `check_results["warn"]` and
`check_results["raise"]` (backend_model.py:599,611-619). -/
def runChecks (W : Where.Env) : List Check → Except Err (List String × List String)
  | [] => .ok ([], [])
  | c :: cs =>
    if c.active then
      match fires W c with
      | .error x => .error x
      | .ok hit =>
        match runChecks W cs with
        | .error x => .error x
        | .ok (ws, es) =>
          .ok (if hit then if c.raises then (ws, c.message :: es) else (c.message :: ws, es) else (ws, es))
    else runChecks W cs

/-- `_sort_strings` (exceptions.py:88-89). -/
def sortStrings (l : List String) : List String := l.dedup.mergeSort (fun a b => decide (a ≤ b))

/-- What building a backend does with the checks (`print_warnings_and_raise_errors`, exceptions.py:104-109). -/
inductive Checked where
  /-- a condition could not be evaluated -/
  | crashed (x : Err)
  /-- a `ModelError` with these messages, after a warning with those messages if there are any -/
  | raised (warnings errors : List String)
  /-- the build goes on, after a warning with those messages if there are any -/
  | passed (warnings : List String)
  deriving DecidableEq

/-- `_check_inputs` (backend_model.py:597-623). -/
def checkInputs (W : Where.Env) (cs : List Check) : Checked :=
  match runChecks W cs with
  | .error x => .crashed x
  | .ok (ws, []) => .passed (sortStrings ws)
  | .ok (ws, e :: es) => .raised (sortStrings ws) (sortStrings (e :: es))

end BaseMath
end Calliope
