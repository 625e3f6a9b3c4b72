import Mathlib.Data.List.Infix

/-!
# Model: what is logged (`util/logging.py`, `_cli_start` of `cli.py`)

Python's `logging` is modelled as far as Calliope uses it: loggers are named by the parts of their dotted names, each has a
level and handlers, and messages go to the handlers of the logger and of all loggers above it. Loggers that nothing has been
set for have level 0 and no handlers, whether they have been asked for or not. `logging.disable`, filters, levels of handlers
and `propagate = False`, none of which Calliope uses, are left out, as are formats of messages.
-/

namespace Calliope
namespace Logging

/-- A dotted name of a logger by its parts; `[]` is Python's root logger. -/
abbrev Name := List String

/-- Handlers: consoles that `setup_root_logger` makes (logging.py:43-47), numbered in the order in which they are made, and
handlers of others. -/
inductive Handler
  | console (n : Nat)
  | other (n : Nat)
  deriving DecidableEq, Repr

/-- All loggers; `capture` is whether Python's warnings go to the logger `py.warnings`; `made` is the number of consoles made;
`orig` is `_orig_py_warning_handlers` (logging.py:12). -/
structure Tree where
  level : Name → Int
  handlers : Name → List Handler
  capture : Bool
  made : Nat
  orig : List Handler

/-- The argument `verbosity`. -/
inductive Verbosity
  | name (s : List Char)
  | number (n : Int)
  deriving DecidableEq, Repr

/-- The logger of the package (logging.py:36). -/
def calliope : Name := ["calliope"]

/-- The logger of solver output (logging.py:86, backend_model.py:118). -/
def solve : Name := ["calliope", "backend", "backend_model", "<solve>"]

/-- The logger of Python's warnings (logging.py:51). -/
def warnings : Name := ["py", "warnings"]

/-- `verbosity.upper()` of strings (logging.py:84-85), for letters of ASCII. -/
def upper : Verbosity → Verbosity
  | .name s => .name (s.map Char.toUpper)
  | .number n => .number n

/-- The levels that Python knows by name. -/
def levelNames : List (List Char × Int) :=
  [("CRITICAL".toList, 50), ("FATAL".toList, 50), ("ERROR".toList, 40), ("WARN".toList, 30), ("WARNING".toList, 30),
    ("INFO".toList, 20), ("DEBUG".toList, 10), ("NOTSET".toList, 0)]

/-- Python's `_checkLevel`: a number as it is, a name that is known; else ValueError. -/
def checkLevel : Verbosity → Option Int
  | .number n => some n
  | .name s => levelNames.lookup s

/-- `Logger.setLevel` with a level that has been checked. -/
def setLevel (t : Tree) (n : Name) (l : Int) : Tree :=
  { t with level := fun m => if m = n then l else t.level m }

def setHandlers (t : Tree) (n : Name) (hs : List Handler) : Tree :=
  { t with handlers := fun m => if m = n then hs else t.handlers m }

/-- A logger and all above it, up to the root. -/
def chain (n : Name) : List Name := n.inits.reverse

/-- `Logger.hasHandlers`: of the logger or one above it. -/
def hasHandlers (t : Tree) (n : Name) : Bool := (chain n).any (fun m => !(t.handlers m).isEmpty)

/-- logging.py:38-40: the handlers of the package's logger are removed. -/
def clear (t : Tree) : Tree := if hasHandlers t calliope then setHandlers t calliope [] else t

/-- logging.py:43-47: a new console. -/
def attach (t : Tree) : Tree :=
  { setHandlers t calliope (t.handlers calliope ++ [.console t.made]) with made := t.made + 1 }

/-- logging.py:50-59, once the level has been set: Python's warnings; `console` is the console made. -/
def setWarnings (t : Tree) (l : Int) (capture : Bool) (console : Handler) : Tree :=
  if capture then setLevel (setHandlers { t with capture := true } warnings (t.orig ++ [console])) warnings l
  else setHandlers (setLevel { t with capture := false } warnings 30) warnings t.orig

/-- `setup_root_logger` (logging.py:15-61). The tree is as the function leaves it, whether or not it raises; the second part is
whether it returns. -/
def setupRoot (t : Tree) (v : Verbosity) (capture : Bool) : Tree × Bool :=
  match checkLevel v with
  | none => (attach (clear t), false)
  | some l => (setWarnings (setLevel (attach (clear t)) calliope l) l capture (.console (clear t).made), true)

/-- A call of `set_log_verbosity`. -/
structure Call where
  verbosity : Verbosity
  includeSolver : Bool
  capture : Bool
  deriving DecidableEq, Repr

/-- `set_log_verbosity` (logging.py:64-93). -/
def setLogVerbosity (t : Tree) (c : Call) : Tree × Bool :=
  if c.includeSolver then setupRoot (setLevel t solve 10) (upper c.verbosity) c.capture
  else
    match checkLevel (upper c.verbosity) with
    | none => (t, false)
    | some l => setupRoot (setLevel t solve l) (upper c.verbosity) c.capture

/-- One call after another; a program may catch the errors. -/
def calls (t : Tree) (cs : List Call) : Tree := cs.foldl (fun t c => (setLogVerbosity t c).1) t

/-- `Logger.getEffectiveLevel`: the first level that is set, going up. -/
def effective (t : Tree) (n : Name) : Int := (((chain n).map t.level).find? (fun l => l ≠ 0)).getD 0

/-- The handlers that get a message of level `l` given to the logger `n`, in order. -/
def printed (t : Tree) (n : Name) (l : Int) : List Handler :=
  if effective t n ≤ l then ((chain n).map t.handlers).flatten else []

/-- What handlers get of a warning of Python: if captured, a message of level 30. -/
def printedWarning (t : Tree) : List Handler := if t.capture then printed t warnings 30 else []

/-- Whitespace of `str.strip`, for characters of ASCII. -/
def isSpace (c : Char) : Bool := c.isWhitespace

/-- `LogWriter.write` (logging.py:144-149): the message that is logged, if any. -/
def write (strip : Bool) (message : List Char) : Option (List Char) :=
  if message = ['\n'] then none
  else some (if strip then ((message.dropWhile isSpace).reverse.dropWhile isSpace).reverse else message)

/-- `timings[identifier] = now` of `log_time` (logging.py:124). -/
def logTime (timings : List (String × Rat)) (identifier : String) (now : Rat) : List (String × Rat) :=
  if timings.any (fun p => p.1 = identifier) then
    timings.map (fun p => if p.1 = identifier then (identifier, now) else p)
  else timings ++ [(identifier, now)]

/-- `_cli_start` (cli.py:121-144): the call for the options `--debug` and `--quiet`. -/
def cliStart (debug quiet : Bool) : Call :=
  if debug then ⟨.name "debug".toList, true, true⟩
  else if quiet then ⟨.name "warning".toList, false, true⟩
  else ⟨.name "info".toList, true, true⟩

end Logging
end Calliope
