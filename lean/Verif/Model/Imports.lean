import Verif.Model.ModelDefinition

/-!
# Model of YAML imports and of the layering of math files

Source: `/repo/src/calliope/io.py:231-291`, `/repo/src/calliope/preprocess/model_math.py:57-99`.
-/

namespace Calliope
namespace Imports

/-- Python truth value of a stored value (`if imports:`, io.py:276). Opaque values count as
true. -/
def truthy : Val Scalar → Bool
  | .leaf none => false
  | .leaf (some (.str s)) => s ≠ ""
  | .leaf (some (.int i)) => i ≠ 0
  | .leaf (some (.bool b)) => b
  | .leaf (some (.list l)) => l ≠ []
  | .leaf (some (.other _)) => true
  | .dict d => d ≠ .nil

/-- The loop of `_resolve_yaml_imports` (io.py:282-290); `read` is `read_rich_yaml` of the named
file with its default `allow_override=False` (io.py:284). -/
def importLoop (read : String → Option (Except Err Def)) (allowOverride : Bool) :
    Def → List String → Option (Except Err Def)
  | loaded, [] => some (loaded.delKey ["import"])
  | loaded, k :: ks =>
      match read k with
      | none => none
      | some (.error e) => some (.error e)
      | some (.ok imported) =>
          match imported.union loaded allowOverride with
          | .error e => some (.error e)
          | .ok loaded' => importLoop read allowOverride loaded' ks

/-- `_resolve_yaml_imports` (io.py:271-291).  `isFile`: whether `base_path` is not None. -/
def resolveImports (read : String → Option (Except Err Def)) (isFile allowOverride : Bool)
    (loaded : Def) : Option (Except Err Def) :=
  let imports := loaded.getKeyD ["import"] (.leaf none)
  if truthy imports then
    match imports with
    | .leaf (some (.list l)) =>
        if isFile then importLoop read allowOverride loaded l else some (.error .valueError)
    | _ => some (.error .valueError)
  else some (.ok loaded)

/-- `read_rich_yaml` of a file (io.py:231-254).  `fs` gives the parsed content of each file
(parsing itself is ruamel.yaml's), `rel base k` is `relative_path(base, k)`.  `fuel` bounds the
depth of imports; `none` = not returned at that depth. -/
def readYaml (fs : String → Option Def) (rel : String → String → String) :
    Nat → String → Bool → Option (Except Err Def)
  | 0, _, _ => none
  | fuel + 1, path, allowOverride =>
      match fs path with
      | none => some (.error .valueError)          -- no such file
      | some d => resolveImports (fun k => readYaml fs rel fuel (rel path k) false) true allowOverride d

/-! ## Math files -/

/-- `get_math_priority` (model_math.py:57-63). -/
def mathPriority (mode : String) (extraMath : List String) : List String :=
  (if mode ≠ "base" then ["base"] ++ [mode] else ["base"]) ++ extraMath

/-- The loop of `build_math` (model_math.py:87-92): every `KeyError`, also one raised by `union`,
becomes a `ModelError`.  `union` of something that is not a dictionary is a `ValueError`
(attrdict.py:45). -/
def applyMath (dataset : Def) : Def → List String → Except Err Def
  | math, [] => .ok math
  | math, name :: names =>
      match dataset.get1 name with
      | none => .error .modelError
      | some (.leaf _) => .error .valueError
      | some (.dict m) =>
          match math.union m true with
          | .error .keyError => .error .modelError
          | .error e => .error e
          | .ok math' => applyMath dataset math' names

/-- `build_math` up to the merged dictionary (model_math.py:87-95); pydantic validation is
modelled in `Verif/Model/MathSchema.lean`. -/
def buildMath (priority : List String) (dataset : Def) (overwrite : Option Def) : Except Err Def :=
  match applyMath dataset .nil priority with
  | .error e => .error e
  | .ok math =>
      match overwrite with
      | none => .ok math
      | some o => if o = .nil then .ok math else math.union o true

end Imports
end Calliope
