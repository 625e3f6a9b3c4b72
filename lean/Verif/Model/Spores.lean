import Mathlib.Algebra.Order.Ring.Rat
import Mathlib.Algebra.BigOperators.Group.List.Basic
import Mathlib.Algebra.Order.Group.Unbundled.Abs

/-!
# Model of SPORES mode (`calliope.model.Model`)

Source: `/repo/src/calliope/model.py:601-702, 746-874`.

Arrays over nodes, techs and carriers are functions on items, `none` is NaN.  Costs are `none` when
infinite.  The solver is an abstract function of the number of the call and of what the backend
holds, so that any sequence of outcomes is covered; it returns `none` when there is no solution
(empty results).
-/

namespace Calliope
namespace Spores

structure Item where
  node : String
  tech : String
  carrier : String
  deriving DecidableEq, Repr

abbrev Arr := Item → Option Rat

/-- An upper limit of flow capacity in the inputs. -/
inductive Cap where
  | nan | inf
  | val (x : Rat)
  deriving DecidableEq, Repr

/-- `SPORES_SCORING_OPTIONS` (config_schema.py). -/
inductive Algorithm where
  | integer | relativeDeployment | random | evolvingAverage
  deriving DecidableEq, Repr

/-- What a SPORES run depends on. -/
structure Cfg where
  items : List Item               -- the index of `flow_cap`
  defined : Item → Bool           -- `definition_matrix`
  tracked : Item → Bool           -- `spores_techs` (model.py:861-866)
  flowCapMax : Option (Item → Cap)
  inputCost : Option (Option Rat) -- `inputs.get("spores_baseline_cost")`
  objective : String              -- `config.build.objective`
  number : Int
  algorithm : Algorithm
  factor : Rat                    -- `score_threshold_factor`
  useLatest : Bool
  choice : Nat → Item → Bool      -- `np.random.choice([0, 1000])`, per call

/-- What the backend holds. -/
structure Backend where
  score : Arr                     -- `spores_score`
  cost : Option Rat               -- `spores_baseline_cost`
  objective : String              -- the active objective

/-- What a solve finds. -/
structure Sol where
  cap : Arr                       -- `flow_cap`
  value : Rat                     -- value of `config.build.objective`

/-- A result dataset: the solution plus the two postprocessed arrays of spores.yaml. -/
structure Result where
  cap : Arr
  value : Rat
  scoreTracked : Arr              -- `spores_score_cumulative`
  costTracked : Option (Option Rat)  -- `spores_baseline_cost_tracked`, absent in base-mode results

/-- The solver. -/
abbrev Solver := Nat → Backend → Option Sol

inductive SpErr where
  | restartTooLate     -- line 637
  | noBaseline         -- line 647
  | noFlowCapMax       -- line 792
  deriving DecidableEq, Repr

/-- `backend._solve` with the postprocessed arrays `spores_score_cumulative` and
`spores_baseline_cost_tracked` (spores.yaml): the values of the parameters, default 0 for the
score. -/
def solveWith (c : Cfg) (S : Solver) (k : Nat) (b : Backend) : Option Result :=
  match S k b with
  | none => none
  | some s => some
      { cap := s.cap
        value := s.value
        scoreTracked := fun i => if c.defined i then some ((b.score i).getD 0) else none
        costTracked := some b.cost }

/-- `update_input("spores_score", new)` (backend_model.py:1217-1281): NaN entries keep their value. -/
def updScore (old new : Arr) : Arr := fun i =>
  match new i with
  | some v => some v
  | none => old i

/-- `x.where(cond)`. -/
def whereArr (x : Arr) (cond : Item → Bool) : Arr := fun i => if cond i then x i else none

/-- One step of a maximum. -/
def maxStep (m : Option Rat) (v : Rat) : Option Rat :=
  match m with
  | none => some v
  | some w => some (max w v)

/-- `max` over nodes and techs, skipping NaN: one value per carrier (lines 770-772). -/
def maxOver (items : List Item) (x : Arr) (carrier : String) : Option Rat :=
  ((items.filter (fun i => decide (i.carrier = carrier))).filterMap x).foldl maxStep none

/-- `a > b` with NaN comparing false. -/
def gt (a b : Option Rat) : Bool :=
  match a, b with
  | some x, some y => decide (y < x)
  | _, _ => false

/-- `_score_integer` (lines 763-781). -/
def scoreInteger (c : Cfg) (latest : Arr) (old : Item → Rat) : Arr := fun i =>
  let previous := whereArr latest c.tracked
  let minSize := (maxOver c.items previous i.carrier).map (c.factor * ·)
  if c.tracked i then some ((if gt (previous i) minSize then 1000 else 0) + old i) else none

/-- `previous_cap / flow_cap_max` (line 795).  Division by a zero limit gives NaN: capacities are
between 0 and the limit, so it is 0/0. -/
def relativeCap (latest : Arr) (lim : Item → Cap) : Arr := fun i =>
  match latest i, lim i with
  | some x, .val m => if m = 0 then none else some (x / m)
  | some _, .inf => some 0
  | _, _ => none

/-- `_score_relative_deployment` (lines 783-803). -/
def scoreRelative (c : Cfg) (latest : Arr) (old : Item → Rat) : Except SpErr Arr :=
  match c.flowCapMax with
  | none => .error .noFlowCapMax
  | some lim =>
      if c.items.any (fun i => c.tracked i && decide (lim i = .inf)) then .error .noFlowCapMax
      else .ok (fun i =>
        if c.tracked i then
          some ((match relativeCap latest lim i with
            | some r => if c.factor < r then r else 0
            | none => 0) + old i)
        else none)

/-- `_score_random` (lines 805-819). -/
def scoreRandom (c : Cfg) (k : Nat) (latest : Arr) (old : Item → Rat) : Arr := fun i =>
  if c.tracked i then
    some ((match latest i with
      | none => 0
      | some _ => if c.choice k i then 1000 else 0) + old i)
  else none

/-- NaN-propagating addition. -/
def addStep (i : Item) (acc : Option Rat) (r : Result) : Option Rat :=
  match acc, r.cap i with
  | some a, some x => some (a + x)
  | _, _ => none

/-- NaN-propagating sum of one item over all results (line 826). -/
def sumCaps (all : List Result) (i : Item) : Option Rat := all.foldl (addStep i) (some 0)

/-- `relative_change` (lines 826-830); 0/0 is NaN. -/
def relativeChange (all : List Result) (latest : Arr) : Arr := fun i =>
  match sumCaps all i, latest i with
  | some s, some x =>
      if s = 0 then none else some (|s / all.length - x| / (s / all.length))
  | _, _ => none

/-- `_score_evolving_average` (lines 821-847). -/
def scoreEvolving (c : Cfg) (all : List Result) (latest : Arr) (old : Item → Rat) : Arr :=
  if (c.items.filterMap (relativeChange all latest)).sum = 0 then scoreInteger c latest old
  else fun i =>
    if c.tracked i then
      match relativeChange all latest i with
      | some r => some (max r (1 / 1000))⁻¹
      | none => some 0
    else some 0

/-- `_spores_update_model` (lines 746-874): the new scores, from the results so far. -/
def newScore (c : Cfg) (k : Nat) (all : List Result) (latest : Result) (b : Backend) : Except SpErr Arr :=
  let old := fun i => (b.score i).getD 0
  match c.algorithm with
  | .integer => .ok (scoreInteger c latest.cap old)
  | .relativeDeployment => scoreRelative c latest.cap old
  | .random => .ok (scoreRandom c k latest.cap old)
  | .evolvingAverage => .ok (scoreEvolving c all latest.cap old)

/-- One call of the solver: what the backend held, and what came back. -/
structure Call where
  backend : Backend
  result : Option Result

/-- The loop over spores (lines 669-682).  `k` numbers the calls of the solver, `rs` is
`results_list` and `latest` its last element. -/
def loop (c : Cfg) (S : Solver) : List Int → Nat → List Result → Result → Backend →
    Except SpErr (Backend × List Call × List Result)
  | [], _, _, _, b => .ok (b, [], [])
  | _ :: ss, k, rs, latest, b =>
      match newScore c k rs latest b with
      | .error e => .error e
      | .ok sc =>
          let b1 := { b with score := updScore b.score sc }
          match solveWith c S k b1 with
          | none => .ok (b1, [⟨b1, none⟩], [])
          | some r => match loop c S ss (k + 1) (rs ++ [r]) r b1 with
            | .error e => .error e
            | .ok (b2, calls, out) => .ok (b2, ⟨b1, some r⟩ :: calls, r :: out)

/-- The results a model already has. -/
inductive Prior where
  | nothing
  | plain (r : Result)
  | spores (rs : List (Int × Result))

/-- `self.results.spores.max()` (line 624). -/
def maxLabel : List (Int × Result) → Int
  | [] => 0
  | [e] => e.1
  | e :: r => max e.1 (maxLabel r)

/-- `spore_range` (lines 642-644). -/
def sporeRange (latest number : Int) : List Int :=
  (List.range (number - latest).toNat).map (fun i : Nat => latest + 1 + (i : Int))

/-- `constraining_cost` (lines 653-660): the tracked cost, else the input, unless missing, zero or
infinite; then the baseline's objective value. -/
def constrainingCost (c : Cfg) (baseline : Result) : Rat :=
  match (match baseline.costTracked with
    | some t => some t
    | none => c.inputCost) with
  | some (some v) => if v = 0 then baseline.value else v
  | _ => baseline.value

/-- What a run leaves: the backend, the solver calls and the labelled results. -/
structure Outcome where
  backend : Backend
  calls : List Call
  results : List (Int × Result)

/-- Lines 610-613: scores are reset to the default. -/
def reset (b : Backend) : Backend := { b with score := fun _ => some 0 }

/-- Lines 688-693: earlier results, then the new ones without the restart point. -/
def joinResults (latest : Int) (before : Option (List (Int × Result))) (new : List (Int × Result)) :
    List (Int × Result) :=
  match before with
  | some prior => prior ++ new.filter (fun e => decide (e.1 ≠ latest))
  | none => new

/-- The part of `_solve_spores` from line 636 on.  `latest` is the number of the baseline, `pre` the
calls made for it and `before` what the results are appended to. -/
def explore (c : Cfg) (S : Solver) (latest : Int) (baseline : Option Result) (pre : List Call)
    (before : Option (List (Int × Result))) (b : Backend) : Except SpErr Outcome :=
  if c.number ≤ latest then .error .restartTooLate
  else match baseline with
    | none => .error .noBaseline
    | some base =>
        let b1 := { b with cost := some (constrainingCost c base), objective := "min_spores" }
        let range := sporeRange latest c.number
        match loop c S range pre.length [base] base b1 with
        | .error e => .error e
        | .ok (b2, calls, out) =>
            let labelled := (latest :: range.take out.length).zip (base :: out)   -- lines 684-687
            .ok ⟨b2, pre ++ calls, joinResults latest before labelled⟩

/-- `_solve_spores` (lines 601-702). -/
def run (c : Cfg) (S : Solver) (prior : Prior) (b : Backend) : Except SpErr Outcome :=
  let b := reset b
  if c.useLatest then
    match prior with
    | .spores rs =>
        let latest := maxLabel rs
        let base := (rs.find? (fun e => decide (e.1 = latest))).map Prod.snd
        let b1 := match base with
          | some r => { b with score := updScore b.score r.scoreTracked }
          | none => b
        explore c S latest base [] (if 0 < latest then some rs else none) b1
    | .plain r => explore c S 0 (some r) [] none b
    | .nothing => explore c S 0 none [] none b
  else
    let b0 := { b with objective := c.objective }
    let base := solveWith c S 0 b0
    explore c S 0 base [⟨b0, base⟩] none b0

end Spores
end Calliope
