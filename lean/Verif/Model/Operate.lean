import Mathlib.Algebra.Order.Ring.Rat

/-!
# Model of operate mode (`calliope.model.Model`)

Source: `/repo/src/calliope/model.py:466-599`.

Instants and durations are integers (nanoseconds).  One timeseries parameter, one timeseries lookup
and one storage device stand for all of them.  The optimisation problem is an abstract function
from the data the backend holds to the storage level per timestep (`none` when not optimal).
-/

namespace Calliope
namespace Operate

/-- Everything a run in operate mode depends on. -/
structure Cfg (L : Type) where
  axis : List Int                 -- `inputs.timesteps`, ascending
  window : Int                    -- `config.build.operate.window`, a fixed frequency
  horizon : Int                   -- `config.build.operate.horizon`
  data : Int → Option Rat         -- a timeseries parameter (`none` = NaN)
  look : Int → L                  -- a timeseries lookup
  initial0 : Option Rat           -- the input `storage_initial`
  cap : Option Rat                -- the input `storage_cap`
  /-- `backend._solve`: data by position, lookup by position, initial storage to storage levels. -/
  solve : List (Option Rat) → List L → Option Rat → Option (List (Option Rat))

variable {L : Type}

/-- What the backend holds. -/
structure Backend (L : Type) where
  params : List (Option Rat)
  lookups : List L
  initial : Option Rat

/-- Uncaught exceptions. -/
inductive OpErr where
  | unboundLocal      -- `windowstep` referenced before assignment (model.py:572)
  | keyError          -- selecting timesteps in an empty dataset (model.py:535)
  | indexError        -- `isel(timesteps=-1)` of nothing (model.py:594)
  | emptyAxis
  deriving DecidableEq, Repr

/-- `pd.date_range(first, last, freq=window)` (model.py:482-486). -/
def dateRange (first last window : Int) : List Int :=
  (List.range (((last - first) / window).toNat + 1)).map (fun i : Nat => first + (i : Int) * window)

/-- `windowsteps` (model.py:482-486). -/
def windowsteps (c : Cfg L) : List Int :=
  match c.axis.head?, c.axis.getLast? with
  | some a, some b => dateRange a b c.window
  | _, _ => []

/-- `horizonsteps` at a window start (model.py:487-496): `_TS_OFFSET` is one nanosecond. -/
def horizonstep (c : Cfg L) (w : Int) : Int :=
  match c.axis.getLast? with
  | some b => min (w + c.horizon) (b + 1) - 1
  | none => w

/-- `inputs.sel(timesteps=slice(windowstep, horizonstep))` (model.py:497-502, 541-543). -/
def windowTimes (c : Cfg L) (w : Int) : List Int :=
  c.axis.filter (fun t => decide (w ≤ t ∧ t ≤ horizonstep c w))

/-- `self.build(force=True)` for the window starting at `w` (model.py:295-303, 497-503). -/
def build (c : Cfg L) (w : Int) : Backend L :=
  { params := (windowTimes c w).map c.data
    lookups := (windowTimes c w).map c.look
    initial := c.initial0 }

/-- `update_input` of one element (backend_model.py:1217-1218, pyomo_backend_model.py:430-432): empty
new values are skipped. -/
def updElem (old new : Option Rat) : Option Rat :=
  match new with
  | some v => some v
  | none => old

/-- `_recalculate_storage_initial` and the update with it (model.py:563-567, 583-599).  `prev` is the
previous window's result, `keep` its non-overlapping part. -/
def nextInitial (c : Cfg L) (prev keep : List (Int × Option Rat)) (old : Option Rat) :
    Except OpErr (Option Rat) :=
  if prev.any (fun r => r.2.isSome) then
    match keep.getLast? with
    | none => .error .indexError
    | some (_, s) => .ok (updElem old (match s, c.cap with
        | some s, some k => if 0 < k then some (s / k) else none
        | _, _ => none))
  else .ok old

/-- One call of the solver: the window's start, what the backend held, and the result. -/
structure Call (L : Type) where
  start : Int
  backend : Backend L
  result : List (Int × Option Rat)

/-- Results of a window: storage levels with the window's timesteps put back as labels
(model.py:569-570); nothing but labels when not optimal. -/
def label (ts : List Int) (r : Option (List (Option Rat))) : List (Int × Option Rat) :=
  match r with
  | some st => ts.zip st
  | none => ts.map (fun t => (t, none))

/-- The loop of `_solve_operate` over `windowsteps[1:]` and the lines after it
(model.py:528-573).  `w` is the latest window's start, `prev` its result.  Returned: the calls of the
solver, and the parts that are concatenated. -/
def loop (c : Cfg L) : Int → List Int → Backend L → List (Int × Option Rat) →
    Except OpErr (List (Call L) × List (List (Int × Option Rat)))
  | w, [], _, prev => .ok ([], [prev.filter (fun r => decide (w ≤ r.1))])
  | _, w' :: ws, b, prev =>
      let keep := prev.filter (fun r => decide (r.1 < w'))                 -- lines 534-538
      let ts := windowTimes c w'                                           -- lines 540-543
      let b1 : Backend L :=
        if ts.length ≠ prev.length then build c w'                         -- lines 546-551
        else { b with params := List.zipWith updElem b.params (ts.map c.data) }  -- lines 553-561
      match nextInitial c prev keep b1.initial with                        -- lines 563-567
      | .error e => .error e
      | .ok ini =>
          let b2 : Backend L := { b1 with initial := ini }
          let res := label ts (c.solve b2.params b2.lookups b2.initial)    -- lines 569-570
          match loop c w' ws b2 res with
          | .error e => .error e
          | .ok (calls, parts) => .ok (⟨w', b2, res⟩ :: calls, keep :: parts)

/-- `_solve_operate` (model.py:505-581).  `startIdx` is `_start_window_idx` and `b` the backend as the
run finds it.  Returned: the calls of the solver and the concatenated results. -/
def run (c : Cfg L) (startIdx : Nat) (b : Backend L) :
    Except OpErr (List (Call L) × List (Int × Option Rat)) :=
  match windowsteps c with
  | [] => .error .emptyAxis
  | w0 :: ws =>
      let b := if startIdx ≠ 0 then build c w0 else b                      -- lines 517-520
      match ws with
      | [] => .error .unboundLocal                                         -- line 572
      | _ :: _ =>
        match c.solve b.params b.lookups b.initial with                    -- line 524
        | none => .error .keyError                                         -- line 535
        | some st =>
            let res := label (windowTimes c w0) (some st)
            match loop c w0 ws b res with
            | .error e => .error e
            | .ok (calls, parts) => .ok (⟨w0, b, res⟩ :: calls, parts.flatten)

end Operate
end Calliope
