import Verif.Model.Spores

/-!
# Model of saving each SPORE to its own file

Source: `/repo/src/calliope/model.py:619-623,669-682,704-744,876-899`, `/repo/src/calliope/io.py:137-180`.

A run is the list of its solver calls (`Event`); each is followed by the writes of `_spores_save_model`.  A run that is
stopped, by an error or by the end of the process, has done the first of these effects.  Each group of a file is written as
a whole or not at all.

Simplifications: `save_per_spore_path` is given; the folder is a function from the number of a spore to the file
`spore_<number>.nc`.  Attributes and inputs are kept as there or not.  `status` is the termination condition of the solver,
whose results are loaded for some conditions (pyomo_backend_model.py:374-391: for all that Pyomo calls `ok`, among them
`maxTimeLimit`).  There are results if the condition is `optimal` or `feasible`.
-/

namespace Calliope
namespace Spores

/-- The termination condition of each call of the solver. -/
abbrev Status := Nat → Backend → String

/-- A call of the solver: the number of the spore, the termination condition and the results, if any. -/
structure Event where
  label : Int
  status : String
  result : Option Result

/-- The calls of the loop over spores (model.py:669-682), as far as it goes; see `loop`. -/
def loopEvents (c : Cfg) (S : Solver) (T : Status) : List Int → Nat → List Result → Result → Backend → List Event
  | [], _, _, _, _ => []
  | s :: ss, k, rs, latest, b =>
      match newScore c k rs latest b with
      | .error _ => []
      | .ok sc =>
          match solveWith c S k { b with score := updScore b.score sc } with
          | none => [⟨s, T k { b with score := updScore b.score sc }, none⟩]
          | some r => ⟨s, T k { b with score := updScore b.score sc }, some r⟩ ::
              loopEvents c S T ss (k + 1) (rs ++ [r]) r { b with score := updScore b.score sc }

/-- The calls after the baseline (model.py:636-682); see `explore`. -/
def exploreEvents (c : Cfg) (S : Solver) (T : Status) (latest : Int) (baseline : Option Result) (k : Nat)
    (b : Backend) : List Event :=
  if c.number ≤ latest then []
  else match baseline with
    | none => []
    | some base => loopEvents c S T (sporeRange latest c.number) k [base] base
        { b with cost := some (constrainingCost c base), objective := "min_spores" }

/-- The scores with which a run is continued (model.py:628-631). -/
def restartScore (b : Backend) : Option Result → Backend
  | some r => { b with score := updScore b.score r.scoreTracked }
  | none => b

/-- All calls of `_solve_spores` (model.py:601-682); see `run`. -/
def runEvents (c : Cfg) (S : Solver) (T : Status) (prior : Prior) (b : Backend) : List Event :=
  if c.useLatest then
    match prior with
    | .spores rs =>
        exploreEvents c S T (maxLabel rs) ((rs.find? (fun e => decide (e.1 = maxLabel rs))).map Prod.snd) 0
          (restartScore (reset b) ((rs.find? (fun e => decide (e.1 = maxLabel rs))).map Prod.snd))
    | .plain r => exploreEvents c S T 0 (some r) 0 (reset b)
    | .nothing => exploreEvents c S T 0 none 0 (reset b)
  else
    ⟨0, T 0 { reset b with objective := c.objective },
      solveWith c S 0 { reset b with objective := c.objective }⟩ ::
      exploreEvents c S T 0 (solveWith c S 0 { reset b with objective := c.objective }) 1
        { reset b with objective := c.objective }

/-- A group of a file. -/
inductive Part where
  | results (r : Result)
  | attrs
  | inputs

/-- What a run does, one after the other. -/
inductive Effect where
  | solved (label : Int)
  | write (label : Int) (p : Part)

/-- `if results.attrs["termination_condition"] in ["optimal", "feasible"]` (model.py:718). -/
def conclusive (status : String) : Bool := status == "optimal" || status == "feasible"

/-- The writes of `_spores_save_model` (model.py:727-738). -/
def writesOf (label : Int) (r : Result) : List Effect :=
  if label = 0 then [.write label (.results r), .write label .attrs, .write label .inputs]
  else [.write label (.results r), .write label .attrs]

/-- `_spores_save_model` (model.py:704-744). -/
def saveSpore (e : Event) : List Effect :=
  if conclusive e.status then
    match e.result with
    | none => []
    | some r => writesOf e.label r
  else []

/-- A call of the solver and the saving of its results (model.py:622-623, 673-674). -/
def effectsOf (e : Event) : List Effect := .solved e.label :: saveSpore e

/-- All that a run does. -/
def effects (es : List Event) : List Effect := es.flatMap effectsOf

/-- A file, with the groups in it; no file at all has none. -/
structure SporeFile where
  results : Option Result
  attrs : Bool
  inputs : Bool

/-- The folder. -/
abbrev Folder := Int → SporeFile

/-- `io.save_netcdf` (io.py:137-180): results with mode `"w"`, which replaces the file, other groups with mode `"a"`. -/
def put (f : SporeFile) : Part → SporeFile
  | .results r => ⟨some r, false, false⟩
  | .attrs => { f with attrs := true }
  | .inputs => { f with inputs := true }

def apply (d : Folder) : Effect → Folder
  | .solved _ => d
  | .write l p => fun x => if x = l then put (d l) p else d x

/-- The folder after some effects. -/
def after (d : Folder) (es : List Effect) : Folder := es.foldl apply d

/-- `xr.where(np.abs(x) < t, 0, x)` (model.py:887-889). -/
def threshold (t : Rat) (x : Option Rat) : Option Rat :=
  match x with
  | none => none
  | some v => if |v| < t then some 0 else some v

/-- `_apply_zero_threshold` (model.py:876-899) for the results of one spore. -/
def thresholded (t : Rat) (r : Result) : Result :=
  if t = 0 then r
  else
    { cap := fun i => threshold t (r.cap i)
      value := (threshold t (some r.value)).getD 0
      scoreTracked := fun i => threshold t (r.scoreTracked i)
      costTracked := r.costTracked.map (threshold t) }

/-- The results in memory after `solve` (model.py:366,375-379,402), if the joined termination condition is `joined`
(model.py:695-700). -/
def inMemory (t : Rat) (joined : String) (results : List (Int × Result)) : List (Int × Result) :=
  if conclusive joined then results.map (fun e => (e.1, thresholded t e.2)) else results

end Spores
end Calliope
