import Mathlib.Algebra.Order.Ring.Rat
import Mathlib.Algebra.BigOperators.Group.List.Basic

/-!
# Model of `calliope.preprocess.time`

Source: `/repo/src/calliope/preprocess/time.py` and
`/repo/src/calliope/preprocess/model_data.py:866-909`.

Instants are integers (nanoseconds since an origin at midnight), durations likewise, missing data
(`NaN`) is `none`, values are rationals.  A time axis is the list of its timesteps in ascending
order, which is what the docstring of `resample` (lines 82-83) assumes too.
-/

namespace Calliope
namespace Time

/-- `pd.Timedelta("1 hour")` in nanoseconds. -/
def hour : Int := 3600000000000

/-- One day in nanoseconds. -/
def dayNs : Int := 86400000000000

/-- Calendar date of an instant (`.date()`, `.dt.date`), as a day number. -/
def date (t : Int) : Int := t / dayNs

/-! ## Resolution and weights -/

/-- `timesteps.diff("timesteps", label="lower").reindex(timesteps)` (time.py:25-29): the distance to
the next timestep, missing for the last one. -/
def diffLower : List Int → List (Option Int)
  | [] => []
  | [_] => [none]
  | a :: b :: r => some (b - a) :: diffLower (b :: r)

/-- `ffill` (time.py:37). -/
def ffill (prev : Option Int) : List (Option Int) → List (Option Int)
  | [] => []
  | none :: r => prev :: ffill prev r
  | some v :: r => some v :: ffill (some v) r

/-- `fillna` (time.py:35). -/
def fillna (v : Int) (l : List (Option Int)) : List (Option Int) := l.map (fun x => some (x.getD v))

/-- `add_inferred_time_params` (time.py:18-45): `timestep_resolution` in hours, and
`timestep_weights`. -/
def inferred (axis : List Int) : List (Option Rat) × List Rat :=
  let d := diffLower axis
  let r := if axis.length = 1 then fillna hour d else ffill none d
  (r.map (Option.map (fun x : Int => (x : Rat) / (hour : Rat))), List.replicate axis.length 1)

/-! ## Resampling -/

/-- A timeseries: instants with values. -/
abbrev Series := List (Int × Option Rat)

/-- The values that are there. -/
def present (l : List (Option Rat)) : List Rat := l.filterMap id

/-- xarray `sum(skipna=True, min_count=1)` (time.py:114-115). -/
def sumMin1 (l : List (Option Rat)) : Option Rat :=
  if present l = [] then none else some (present l).sum

/-- xarray `mean(skipna=True)`. -/
def meanSkip (l : List (Option Rat)) : Option Rat :=
  if present l = [] then none else some ((present l).sum / (present l).length)

/-- xarray `first(skipna=True)`. -/
def firstSkip (l : List (Option Rat)) : Option Rat := (present l).head?

/-- `resample_method` (math_schema.py:84). -/
inductive Method where
  | mean | sum | first
  deriving DecidableEq, Repr

/-- `getattr(resampler, resample_method)` (time.py:119). -/
def Method.apply : Method → List (Option Rat) → Option Rat
  | .mean => meanSkip
  | .sum => sumMin1
  | .first => firstSkip

/-- Position of the resampling interval that holds `t`.  `grid i` is the left edge of interval `i`
(pandas offsets are closed and labelled on the left for the frequencies of the docstring,
time.py:84-87); pandas builds the grid, it is a parameter here. -/
def binIndex (grid : Nat → Int) (t : Int) : Nat :=
  ((List.range ((t - grid 0).toNat + 1)).filter (fun i => decide (grid i ≤ t))).length - 1

/-- The values of the timesteps in interval `i`. -/
def members (grid : Nat → Int) (data : Series) (i : Nat) : List (Option Rat) :=
  (data.filter (fun e => decide (grid i ≤ e.1 ∧ e.1 < grid (i + 1)))).map Prod.snd

/-- One variable through `resample` (time.py:104-121): intervals from the first one up to that of
the last timestep, also those without a timestep. -/
def resampleVar (grid : Nat → Int) (method : Method) (data : Series) : Series :=
  match data.getLast? with
  | none => []
  | some last => (List.range (binIndex grid last.1 + 1)).map
      (fun i => (grid i, method.apply (members grid data i)))

/-- The loop over variables of `resample` (time.py:104-124); `find` is `math.find(var_name,
subset=["parameters", "lookups"])` with its `resample_method`; `none` is the `ModelError` of
line 110. -/
def resample (grid : Nat → Int) (find : String → Option Method) :
    List (String × Series) → Option (List (String × Series))
  | [] => some []
  | (n, s) :: r =>
      match find n with
      | none => none
      | some m => match resample grid find r with
        | none => none
        | some r' => some ((n, resampleVar grid m s) :: r')

/-! ## Clustering -/

/-- Insert into a sorted list without duplicates. -/
def insertDay (x : Int) : List Int → List Int
  | [] => [x]
  | y :: r => if x < y then x :: y :: r else if x = y then y :: r else y :: insertDay x r

/-- The distinct representative days in ascending order: the groups of
`representative_days.groupby("clusters")` (time.py:152). -/
def groups (rep : List (Int × Int)) : List Int := rep.foldr (fun e acc => insertDay e.2 acc) []

/-- `grouper.ngroup()` (time.py:156-158): the number of the group of a representative day. -/
def clusterId (rep : List (Int × Int)) (r : Int) : Nat := (groups rep).idxOf r

/-- `grouper.size()` (time.py:159). -/
def weightOf (rep : List (Int × Int)) (r : Int) : Nat := (rep.filter (fun e => e.2 = r)).length

/-- One timestep after clustering. -/
structure Row where
  time : Int
  cluster : Nat                     -- `timestep_cluster`
  weight : Nat                      -- `timestep_weights`
  first : Bool                      -- `cluster_first_timestep`
  lastLookup : Option Int           -- `lookup_cluster_last_timestep`
  deriving DecidableEq, Repr

/-- One original day after clustering. -/
structure DayRow where
  day : Int
  cluster : Nat                     -- `lookup_datestep_cluster`
  lastTime : Option Int             -- `lookup_datestep_last_cluster_timestep`
  deriving DecidableEq, Repr

/-- `data.sel(timesteps=data.timesteps.dt.date.isin(representative_days.values))` (time.py:153-155). -/
def kept (axis : List Int) (rep : List (Int × Int)) : List Int :=
  axis.filter (fun t => decide (date t ∈ rep.map Prod.snd))

/-- `cluster` with `_lookup_clusters` (time.py:131-173, 260-293).  `rep` maps each original day to
its representative day (missing entries dropped, line 149).  Grouping by date and taking the first
or last keeps the data's order.  `lookup_cluster_last_timestep` is indexed by date and then
re-indexed to the timesteps (lines 270-275), so it has a value only at midnight. -/
def cluster (axis : List Int) (rep : List (Int × Int)) : List Row × List DayRow :=
  let ts := kept axis rep
  (ts.map (fun t =>
      { time := t
        cluster := clusterId rep (date t)
        weight := weightOf rep (date t)
        first := decide (some t = ts.find? (fun u => decide (date u = date t)))
        lastLookup := if t = date t * dayNs then (ts.filter (fun u => decide (date u = date t))).getLast?
          else none }),
    rep.map (fun e =>
      { day := e.1
        cluster := clusterId rep e.2
        lastTime := (ts.filter (fun u => decide (clusterId rep (date u) = clusterId rep e.2))).getLast? }))

/-! ## Subsetting -/

/-- A timestamp string of a subset, e.g. `"2005-01"`: the instant `pd.to_datetime` reads, and the
last instant of the period it names (what pandas uses as the right end of a slice). -/
structure Stamp where
  lo : Int
  hi : Int
  deriving DecidableEq, Repr

/-- `check_time_subset` (time.py:201-237).  A string that is no ISO timestamp is `none`. -/
def checkTimeSubset (axis : List Int) (subset : List (Option Stamp)) : Except String Unit :=
  match subset with
  | [some s, some e] =>
      match axis.head?, axis.getLast? with
      | some a, some b =>
          if date e.lo < date a ∨ date s.lo > date b then .error "outside the input data" else .ok ()
      | _, _ => .error "IndexError"
  | [_, _] => .error "ISO format"
  | _ => .error "list of two timestamps"

/-- The time part of `_subset_dims` (model_data.py:877-894): check, then `sel(slice(start, end))`,
which includes both ends. -/
def subsetTime (axis : List Int) (subset : List (Option Stamp)) : Except String (List Int) :=
  match checkTimeSubset axis subset with
  | .error e => .error e
  | .ok _ => match subset with
    | [some s, some e] => .ok (axis.filter (fun t => decide (s.lo ≤ t ∧ t ≤ e.hi)))
    | _ => .error "slice"

end Time
end Calliope
