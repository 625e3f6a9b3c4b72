import Verif.Model.AttrDict
import Verif.Model.Text

/-!
# Model of the generated run scripts and scenarios

Source: `/repo/src/calliope/util/generate_runs.py` and `/repo/src/calliope/cli.py:369-403`.

Text is a list of characters; a file is the text written to it.  `str(n)` of a non-negative integer is
`Nat.toDigits 10 n`.  File permissions, the cluster time conversion (generate_runs.py:164-168) and the comment
lines of the cluster scripts are left out.
-/

namespace Calliope
namespace Runs

/-- Text. -/
abbrev Str := List Char

/-- `str(n)`. -/
def str (n : Nat) : Str := Nat.toDigits 10 n

/-- `"{:0>w d}".format(n)` (generate_runs.py:46,50; cli.py:394,398). -/
def padded (w n : Nat) : Str := List.replicate (w - (str n).length) '0' ++ str n

/-- `len(str(n))` (generate_runs.py:46; cli.py:394). -/
def width (n : Nat) : Nat := (str n).length

/-- What `generate_runs` is given (generate_runs.py:17).  `override_dict` is YAML text; `overrideDef` is what
reading it gives. -/
structure Request (α : Type) where
  modelFile : Str
  scenarios : Option Str
  additionalArgs : Option Str
  overrideDict : Option Str
  /-- `read_rich_yaml(model_file)` -/
  config : Dict α
  /-- `read_rich_yaml(override_dict)` -/
  overrideDef : Dict α

/-- `if x:` for an optional text. -/
def given : Option Str → Option Str
  | some (c :: cs) => some (c :: cs)
  | _ => none

/-- `config.<key>.keys()` (generate_runs.py:37-40). -/
def keysOf {α : Type} (d : Dict α) (k : Key) : Except Err (List Str) :=
  match d.get1 k with
  | none => .error .keyError
  | some (.leaf _) => .error .attributeError
  | some (.dict e) => .ok (e.keys.map String.toList)

/-- The configuration with the override applied (generate_runs.py:32-35). -/
def configOf {α : Type} (q : Request α) : Except Err (Dict α) :=
  match given q.overrideDict with
  | none => .ok q.config
  | some _ => q.config.unionReplace q.overrideDef true

/-- The runs (generate_runs.py:31-42). -/
def runsOf {α : Type} (q : Request α) : Except Err (List Str) :=
  match q.scenarios with
  | some s => .ok (Text.splitChars ';' s)
  | none =>
    match configOf q with
    | .error e => .error e
    | .ok c =>
      match c.get1 "scenarios" with
      | some _ => keysOf c "scenarios"
      | none => keysOf c "overrides"

/-- The output file of run `i` of `n`, counted from 0 (generate_runs.py:46,52). -/
def outFile (n i : Nat) (run : Str) : Str :=
  "out_".toList ++ padded (width n) (i + 1) ++ "_".toList ++ run ++ ".nc".toList

/-- White space. -/
def blank (c : Char) : Bool := c.isWhitespace

/-- `s.strip()`. -/
def strip (s : Str) : Str := ((s.dropWhile blank).reverse.dropWhile blank).reverse

/-- One command (generate_runs.py:49-59). -/
def command {α : Type} (q : Request α) (n i : Nat) (run : Str) : Str :=
  let cmd := strip ("calliope run ".toList ++ q.modelFile ++ " --scenario ".toList ++ run ++ " ".toList ++
    "--save_netcdf ".toList ++ outFile n i run ++ " ".toList)
  let cmd := match given q.overrideDict with
    | none => cmd
    | some d => cmd ++ " --override_dict=\"".toList ++ d ++ "\"".toList
  match given q.additionalArgs with
  | none => cmd
  | some a => cmd ++ " ".toList ++ a

/-- The commands of the runs from number `i` on (generate_runs.py:48-61). -/
def commandsFrom {α : Type} (q : Request α) (n : Nat) : Nat → List Str → List Str
  | _, [] => []
  | i, r :: rs => command q n i r :: commandsFrom q n (i + 1) rs

/-- `generate_runs` (generate_runs.py:17-63). -/
def generateRuns {α : Type} (q : Request α) : Except Err (List Str) :=
  match runsOf q with
  | .error e => .error e
  | .ok runs => .ok (commandsFrom q runs.length 0 runs)

/-- `base_string.format(i=i + 1, cmd=cmd)` of the bash script (generate_runs.py:72,95). -/
def caseLine (i : Nat) (cmd : Str) : Str :=
  "    ".toList ++ str (i + 1) ++ ") ".toList ++ cmd ++ " ;;\n".toList

def caseLinesFrom : Nat → List Str → List Str
  | _, [] => []
  | i, c :: cs => caseLine i c :: caseLinesFrom (i + 1) cs

/-- The lines of the bash script (generate_runs.py:72-97). -/
def bashLines (commands : List Str) : List Str :=
  ["#!/bin/sh".toList, [], "function process_case () {".toList, "    case \"$1\" in".toList, []] ++
  caseLinesFrom 0 commands ++
  ["    esac".toList, "}".toList, [], "if [[ $# -eq 0 ]] ; then".toList,
   "    echo No parameter given, running all runs sequentially...".toList,
   "    for i in $(seq 1 ".toList ++ str commands.length ++ "); do process_case $i; done".toList,
   "else".toList, "    echo Running run $1".toList, "    process_case $1".toList, "fi".toList, []]

/-- `sep.join(lines)`. -/
def join (sep : Str) : List Str → Str
  | [] => []
  | [l] => l
  | l :: ls => l ++ sep ++ join sep ls

/-- The bash script (generate_runs.py:66-105). -/
def bashScript (commands : List Str) : Str := join "\n".toList (bashLines commands)

/-- The lines of the cluster scripts that select the jobs (generate_runs.py:126-136). -/
def bsubLines (base : Str) (commands : List Str) : List Str :=
  ["#!/bin/sh".toList, "#BSUB -J calliope[1-".toList ++ str commands.length ++ "]".toList,
   "./".toList ++ base ++ " ${LSB_JOBINDEX}".toList, []]

/-- generate_runs.py:170-194. -/
def sbatchLines (base : Str) (commands : List Str) : List Str :=
  ["#!/bin/bash".toList, "#SBATCH -J calliope".toList,
   "#SBATCH --array=1-".toList ++ str commands.length,
   "./".toList ++ base ++ " ${SLURM_ARRAY_TASK_ID}".toList]

/-- `base_string.format(...)` of the Windows script (generate_runs.py:206,210). -/
def windowsBlock (i : Nat) (cmd : Str) : Str :=
  "echo \"Run ".toList ++ str (i + 1) ++ "\"\r\n".toList ++ cmd ++ "\r\n".toList

def windowsBlocksFrom : Nat → List Str → List Str
  | _, [] => []
  | i, c :: cs => windowsBlock i c :: windowsBlocksFrom (i + 1) cs

/-- The Windows script (generate_runs.py:199-218). -/
def windowsScript (commands : List Str) : Str :=
  join "\r\n".toList (["@echo off".toList, []] ++ windowsBlocksFrom 0 commands)

/-- `itertools.product(*groups)` (cli.py:388). -/
def product {β : Type} : List (List β) → List (List β)
  | [] => [[]]
  | g :: gs => g.flatMap (fun x => (product gs).map (x :: ·))

/-- The scenario names from number `i` on (cli.py:394-400). -/
def namedFrom (pre : Str) (n : Nat) : Nat → List (List Str) → List (Str × List Str)
  | _, [] => []
  | i, c :: cs => (pre ++ padded (width n) (i + 1), c) :: namedFrom pre n (i + 1) cs

/-- `d[k] = v` for the dictionary comprehension (cli.py:397-400). -/
def assign (d : List (Str × List Str)) (k : Str) (v : List Str) : List (Str × List Str) :=
  match d with
  | [] => [(k, v)]
  | (k', v') :: rest => if k' = k then (k', v) :: rest else (k', v') :: assign rest k v

/-- `generate_scenarios` (cli.py:380-402): the scenarios written. -/
def generateScenarios (overrides : List Str) (namePrefix : Option Str) : List (Str × List Str) :=
  let combinations := product (overrides.map (Text.splitChars ';'))
  let pre := (given namePrefix).getD "scenario_".toList
  (namedFrom pre combinations.length 0 combinations).foldl (fun d e => assign d e.1 e.2) []

end Runs
end Calliope
