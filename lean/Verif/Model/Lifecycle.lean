import Mathlib.Algebra.Order.Ring.Rat
import Mathlib.Algebra.Order.Group.Unbundled.Abs

/-!
# Model of the life cycle of a `calliope.Model`

Source: `/repo/src/calliope/model.py:160-223, 271-404, 876-899`.

Data is a token (`Nat`) that says which build or solve it came from.  What can go wrong inside a
call is part of the call's description, so that histories with failures are histories too.
-/

namespace Calliope
namespace Lifecycle

/-- The backend object: which build made it, and whether all components were added
(model.py:300-303). -/
structure BackendObj where
  id : Nat
  complete : Bool
  deriving DecidableEq, Repr

/-- A `Model` object. -/
structure Model where
  built : Bool                   -- `_is_built`
  solved : Bool                  -- `_is_solved`
  backend : Option BackendObj    -- `backend` (unset until the first build)
  results : Option Nat           -- `results`: `none` when it has no data variables
  fresh : Nat                    -- next token
  deriving DecidableEq, Repr

/-- How a call of `build` goes once the guard is passed. -/
inductive BuildRun where
  | configRejected     -- `config.update` or the operate-mode preparation raises (lines 292-296)
  | backendRejected    -- `get_model_backend` raises (line 300)
  | componentsFail     -- `add_optimisation_components` raises (line 303)
  | succeeds
  deriving DecidableEq, Repr

/-- How a call of `solve` goes once the guards are passed. -/
inductive SolveRun where
  | raises             -- anything before line 402 raises
  | nonOptimal         -- the solver returns no solution: an empty dataset
  | optimal
  deriving DecidableEq, Repr

inductive Call where
  | build (force : Bool) (r : BuildRun)
  | solve (force : Bool) (r : SolveRun)
  deriving DecidableEq, Repr

/-- What the caller sees. -/
inductive Reply where
  | guardError         -- the `ModelError` of lines 281, 337 or 344
  | otherError
  | returned
  deriving DecidableEq, Repr

/-- `Model.__init__` (lines 179-187): `results` given means the model counts as solved. -/
def new (results : Option (Option Nat)) : Model :=
  { built := false
    solved := results.isSome
    backend := none
    results := results.getD none
    fresh := 0 }

/-- `build` (lines 271-312). -/
def build (m : Model) (force : Bool) (r : BuildRun) : Model × Reply :=
  if m.built && !force then (m, .guardError)                                  -- lines 280-284
  else match r with
    | .configRejected => (m, .otherError)
    | .backendRejected => (m, .otherError)
    | .componentsFail =>
        ({ m with backend := some ⟨m.fresh, false⟩, fresh := m.fresh + 1 }, .otherError)
    | .succeeds =>
        ({ m with backend := some ⟨m.fresh, true⟩, fresh := m.fresh + 1, built := true }, .returned)

/-- `solve` (lines 314-404). -/
def solve (m : Model) (force : Bool) (r : SolveRun) : Model × Reply :=
  if !m.built then (m, .guardError)                                           -- lines 336-340
  else if m.results.isSome && !force then (m, .guardError)                    -- lines 343-348
  else match r with
    | .raises => (m, .otherError)
    | .nonOptimal => ({ m with results := none, solved := true }, .returned)
    | .optimal =>
        ({ m with results := some m.fresh, fresh := m.fresh + 1, solved := true }, .returned)

def step (m : Model) : Call → Model × Reply
  | .build f r => build m f r
  | .solve f r => solve m f r

/-- The model after a history of calls. -/
def runs (m : Model) : List Call → Model
  | [] => m
  | c :: cs => runs (step m c).1 cs

/-! ## Zero threshold -/

/-- One element of `xr.where(np.abs(x) < t, 0, x)` (lines 887-889); `none` is NaN, for which the
comparison is false. -/
def zeroElem (t : Rat) : Option Rat → Option Rat
  | none => none
  | some x => if |x| < t then some 0 else some x

/-- `_apply_zero_threshold` (lines 876-899), for arrays as lists. -/
def zeroThreshold (t : Rat) (results : List (String × List (Option Rat))) :
    List (String × List (Option Rat)) :=
  if t ≠ 0 then results.map (fun r => (r.1, r.2.map (zeroElem t))) else results

/-- Lines 376-380: the threshold is applied to optimal and feasible results only. -/
def postprocess (condition : String) (t : Rat) (results : List (String × List (Option Rat))) :
    List (String × List (Option Rat)) :=
  if condition = "optimal" ∨ condition = "feasible" then zeroThreshold t results else results

end Lifecycle
end Calliope
