import Verif.Model.Logging

/-!
# Specification: what is logged
-/

namespace Calliope
namespace Logging

/-- The level that a verbosity stands for: a number, or a name in upper or lower case. -/
inductive Means : Verbosity → Int → Prop
  | number (n : Int) : Means (.number n) n
  | critical (s : List Char) : s.map Char.toUpper = "CRITICAL".toList → Means (.name s) 50
  | fatal (s : List Char) : s.map Char.toUpper = "FATAL".toList → Means (.name s) 50
  | error (s : List Char) : s.map Char.toUpper = "ERROR".toList → Means (.name s) 40
  | warn (s : List Char) : s.map Char.toUpper = "WARN".toList → Means (.name s) 30
  | warning (s : List Char) : s.map Char.toUpper = "WARNING".toList → Means (.name s) 30
  | info (s : List Char) : s.map Char.toUpper = "INFO".toList → Means (.name s) 20
  | debug (s : List Char) : s.map Char.toUpper = "DEBUG".toList → Means (.name s) 10
  | notset (s : List Char) : s.map Char.toUpper = "NOTSET".toList → Means (.name s) 0

/-- Loggers before Calliope sets any: Python's root logger has the level `root` and handlers `R` of the program that uses
Calliope, the logger of warnings has handlers `W`, and nothing else is set. -/
structure Fresh (root : Int) (R W : List Handler) (t : Tree) : Prop where
  level_root : t.level [] = root
  level : ∀ n, n ≠ [] → t.level n = 0
  handlers_root : t.handlers [] = R
  handlers_warnings : t.handlers ["py", "warnings"] = W
  handlers : ∀ n, n ≠ [] → n ≠ ["py", "warnings"] → t.handlers n = []
  orig : t.orig = W
  capture : t.capture = false

/-- Of the calls `cs` the last that was not rejected is `c`, with the level `l`. -/
def LastAccepted (cs : List Call) (c : Call) (l : Int) : Prop :=
  Means c.verbosity l ∧ ∃ a b, cs = a ++ c :: b ∧ ∀ d ∈ b, ¬∃ k, Means d.verbosity k

/-- Loggers of Calliope's modules, other than that of solver output. -/
def OfPackage (n : Name) : Prop :=
  ["calliope"] <+: n ∧ ¬["calliope", "backend", "backend_model", "<solve>"] <+: n

/-- Messages are shown from which level: as asked for; 0 stands for the level of Python's root logger. -/
def asked (root l : Int) : Int := if l = 0 then root else l

/-- A message goes to one console, and to the handlers `R` that the program has at the root. -/
def ShownOnce (R got : List Handler) : Prop := ∃ k, got = .console k :: R

end Logging
end Calliope
