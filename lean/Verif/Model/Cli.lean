import Verif.Model.Config
import Verif.Model.Runs

/-!
# Model of `calliope run`

Source: `/repo/src/calliope/cli.py:67-106,178-315` and `/repo/src/calliope/model.py:336-350`.

What reading, building, solving and saving do is a parameter (`World`); each may raise.  Left out: what is printed, the
options `--debug`, `--quiet`, `--pdb` and `--profile`, which have no other effect.
-/

namespace Calliope
namespace Cli

open Config Runs

/-- The options of the command (cli.py:215-233). -/
structure Options where
  modelFile : Str
  scenario : Option Str
  modelFormat : Option Str
  overrideDict : Option Str
  saveNetcdf : Option Str
  saveCsv : Option Str
  saveLogs : Option Str
  saveLp : Option Str
  failWhenInfeasible : Bool

/-- The parts of calliope that the command calls. -/
structure World (M τ : Type) where
  pydantic : Pydantic τ
  /-- `io.read_rich_yaml` of a text -/
  readText : Str → Except Err Def
  /-- `read_yaml(file, scenario, overrides)` -/
  readYaml : Str → Option Str → Def → Except Err M
  readNetcdf : Str → Except Err M
  config : M → Cfg τ
  withConfig : M → Cfg τ → M
  /-- `model.config.solve.spores.save_per_spore_path is not None` -/
  perSpore : M → Bool
  build : M → Except Err M
  toLp : M → Str → Except Err Unit
  /-- the guards of `solve` (model.py:336-348) -/
  mayS : M → Except Err Unit
  /-- `solve` after the configuration was updated, and the termination condition -/
  solve : M → Except Err (M × String)
  toCsv : M → Str → Except Err Unit
  toNetcdf : M → Str → Except Err Unit

inductive File where
  | lp (p : Str)
  | csv (p : Str)
  | netcdf (p : Str)
  deriving DecidableEq, Repr

/-- What the command leaves behind: the files written, the configuration that was solved with, and an exception. -/
structure Outcome (τ : Type) where
  wrote : List File
  solvedWith : Option (Cfg τ)
  result : Except Err Unit

variable {M τ : Type}

/-- `sys.exit(1)` if an exception was raised (cli.py:89-106). -/
def Outcome.exit (o : Outcome τ) : Nat :=
  match o.result with
  | .ok _ => 0
  | .error _ => 1

/-- `model_file.split(".")[-1]` (cli.py:186,188). -/
def extension (s : Str) : Str := (Text.splitChars '.' s).getLastD []

/-- cli.py:184-195. -/
def formatOf (o : Options) : Except Err Str :=
  match o.modelFormat with
  | some f => .ok f
  | none =>
    if extension o.modelFile ∈ ["yaml".toList, "yml".toList] then .ok "yaml".toList
    else if extension o.modelFile ∈ ["nc".toList, "nc4".toList, "netcdf".toList] then .ok "netcdf".toList
    else .error .valueError

/-- cli.py:196-199. -/
def overridesOf (W : World M τ) (o : Options) : Except Err Def :=
  match o.overrideDict with
  | some t => W.readText t
  | none => .ok .nil

/-- `_run_setup_model` (cli.py:178-212). -/
def setup (W : World M τ) (o : Options) : Except Err M :=
  match formatOf o with
  | .error e => .error e
  | .ok f =>
    match overridesOf W o with
    | .error e => .error e
    | .ok ov =>
      if f = "yaml".toList then W.readYaml o.modelFile o.scenario ov
      else if f = "netcdf".toList then
        if o.scenario.isSome || o.overrideDict.isSome then .error .valueError
        else W.readNetcdf o.modelFile
      else .error .valueError

/-- `Path(p).parent`, up to how paths are written. -/
def parent (p : Str) : Str := ((p.reverse.dropWhile (· ≠ '/')).drop 1).reverse

/-- The keyword arguments of `solve` (cli.py:278-299); the second value is a tuple. -/
def solveArgs (W : World M τ) (o : Options) (m : M) : List (String × Val Scalar) :=
  (match given o.saveLogs with
    | some p => [("solve.save_logs", .leaf (some (.str (String.ofList p))))]
    | none => []) ++
  (match given o.saveNetcdf with
    | some p => if W.perSpore m then
        [("solve.spores.save_per_spore_path", .leaf (some (.list [String.ofList (parent p)])))]
      else []
    | none => [])

/-- `AttrDict(kwargs)`: dotted keys are split (attrdict.py:55-70,90-104). -/
def nested (args : List (String × Val Scalar)) : Except Err Def :=
  Dict.initFrom .nil (args.map (fun a => (Text.split '.' a.1, a.2)))

/-- `self.config.update({"solve": kwargs})` (model.py:350). -/
def configure (W : World M τ) (c : Cfg τ) (args : List (String × Val Scalar)) : Except Err (Cfg τ) :=
  match nested args with
  | .error e => .error e
  | .ok d => update W.pydantic c (.sub "solve" d .nil)

/-- `model.solve(**kwargs)` (model.py:314-404): the model, the termination condition and the configuration used. -/
def solveWith (W : World M τ) (m : M) (args : List (String × Val Scalar)) : Except Err (M × String × Cfg τ) :=
  match W.mayS m with
  | .error e => .error e
  | .ok _ =>
    match configure W (W.config m) args with
    | .error e => .error e
    | .ok c =>
      match W.solve (W.withConfig m c) with
      | .error e => .error e
      | .ok (m', t) => .ok (m', t, c)

/-- `if save_csv: model.to_csv(save_csv)` (cli.py:305-310). -/
def saveOne (p : Option Str) (file : Str → File) (save : Str → Except Err Unit) : Except Err (List File) :=
  match given p with
  | none => .ok []
  | some p =>
    match save p with
    | .error e => .error e
    | .ok _ => .ok [file p]

/-- Saving results, and the check of the termination condition (cli.py:305-315). -/
def finish (W : World M τ) (o : Options) (m : M) (t : String) (c : Cfg τ) : Outcome τ :=
  match saveOne o.saveCsv .csv (W.toCsv m) with
  | .error e => ⟨[], some c, .error e⟩
  | .ok f =>
    match saveOne o.saveNetcdf .netcdf (W.toNetcdf m) with
    | .error e => ⟨f, some c, .error e⟩
    | .ok g =>
      if o.failWhenInfeasible && t != "optimal" then ⟨f ++ g, some c, .error .backendError⟩
      else ⟨f ++ g, some c, .ok ()⟩

/-- `run` (cli.py:251-315). -/
def run (W : World M τ) (o : Options) : Outcome τ :=
  match setup W o with
  | .error e => ⟨[], none, .error e⟩
  | .ok m =>
    match given o.saveLp with
    | some p =>
      match W.build m with
      | .error e => ⟨[], none, .error e⟩
      | .ok m' =>
        match W.toLp m' p with
        | .error e => ⟨[], none, .error e⟩
        | .ok _ => ⟨[.lp p], none, .ok ()⟩
    | none =>
      match W.build m with
      | .error e => ⟨[], none, .error e⟩
      | .ok m' =>
        match solveWith W m' (solveArgs W o m) with
        | .error e => ⟨[], none, .error e⟩
        | .ok (m'', t, c) => finish W o m'' t c

end Cli
end Calliope
