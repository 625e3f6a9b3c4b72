import Mathlib.Data.List.Infix

/-!
# Model: the check of versions (`Model._check_versions` of `model.py`)

Texts are lists of characters.
-/

namespace Calliope
namespace Versions

/-- The two warnings (model.py:231-234, 237-240), with the versions that they name. -/
inductive Warning
  | initialisedWith (initialised running : List Char)
  | specifies (defined initialised : List Char)
  deriving DecidableEq, Repr

/-- `_check_versions` (model.py:225-240): the warnings, in order. `running` is `_version.__version__`, `initialised` is
`runtime.calliope_version_initialised` and `defined` is `config.init.calliope_version`. `str.startswith` is
`List.isPrefixOf` with its arguments the other way round. -/
def checkVersions (running initialised : List Char) (defined : Option (List Char)) : List Warning :=
  (if initialised.isPrefixOf running then [] else [.initialisedWith initialised running]) ++
    match defined with
    | none => []
    | some d => if d.isPrefixOf initialised then [] else [.specifies d initialised]

/-- The default of `calliope_version_initialised` (runtime_attrs_schema.py:20): the running version, used when a model is
made from a definition (model.py:138-154 leaves it as it is); a model that is read keeps the version saved with it. -/
def initialisedWith (running : List Char) (saved : Option (List Char)) : List Char :=
  saved.getD running

end Versions
end Calliope
