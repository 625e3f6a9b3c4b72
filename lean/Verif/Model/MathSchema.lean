import Verif.Model.AttrDict

/-!
# Model of the math schema's name handling

Source: `/repo/src/calliope/schemas/math_schema.py:323-328,395-488`.

A math definition has one dictionary of components per field.  Only the parts of a component
that the modelled functions look at are kept: whether it is active, and the rest as a value of
an opaque type `δ`.
-/

namespace Calliope
namespace Math

/-- The fields of `CalliopeBuildMath` (math_schema.py:401-420), in order. -/
inductive Field where
  | dimensions | parameters | lookups | variables | globalExpressions | constraints
  | piecewiseConstraints | objectives | postprocessed | checks
  deriving DecidableEq, Repr

/-- `type(self).model_fields`. -/
def Field.all : List Field :=
  [.dimensions, .parameters, .lookups, .variables, .globalExpressions, .constraints,
   .piecewiseConstraints, .objectives, .postprocessed, .checks]

/-- One component: the `active` switch (math_schema.py, `MathComponent.active`) and the rest. -/
structure Component (δ : Type) where
  active : Bool
  body : δ
  deriving DecidableEq, Repr

/-- A `CalliopeBuildMath`: for each field, its `root` dictionary (names are unique within one
dictionary; `WF` says so). -/
def MathDef (δ : Type) := Field → List (String × Component δ)

variable {δ : Type}

/-- Names within one dictionary are unique (a Python dict). -/
def MathDef.WF (m : MathDef δ) : Prop := ∀ f, ((m f).map Prod.fst).Nodup

/-- `_active` (math_schema.py:325-328). -/
def activeOf (m : MathDef δ) (f : Field) : List (String × Component δ) :=
  (m f).filter (fun c => c.2.active)

/-- Names of the active components of a field. -/
def activeNames (m : MathDef δ) (f : Field) : List String := (activeOf m f).map Prod.fst

/-- The loop of `unique_component_names` (math_schema.py:432-436) with its two sets. -/
def dupLoop : List (List String) → List String → List String → List String
  | [], _, dups => dups
  | g :: gs, seen, dups => dupLoop gs (seen ++ g) (dups ++ g.filter (fun n => seen.contains n))

/-- Stable insertion into a list sorted by length. -/
def insertByLen (g : List String) : List (List String) → List (List String)
  | [] => [g]
  | h :: t => if g.length ≤ h.length then g :: h :: t else h :: insertByLen g t

/-- `sorted(groups, key=len)` (math_schema.py:432): a stable sort by length. -/
def sortByLen : List (List String) → List (List String)
  | [] => []
  | g :: gs => insertByLen g (sortByLen gs)

/-- `unique_component_names` (math_schema.py:422-442): groups sorted by size, duplicates raise
`ValueError`. -/
def uniqueComponentNames (m : MathDef δ) : Except Err Unit :=
  let groups := sortByLen (Field.all.map (activeNames m))
  if dupLoop groups [] [] = [] then .ok () else .error .valueError

/-- `find` (math_schema.py:475-488).  `subset or (all fields without checks)`: an empty subset
means all fields. -/
def find (m : MathDef δ) (component : String) (subset : List Field) : Except Err (Component δ) :=
  let fields := if subset = [] then Field.all.filter (· ≠ .checks) else subset
  let found := fields.filter (fun f => (activeNames m f).contains component)
  match found with
  | [] => .error .keyError
  | [f] =>
      match (m f).lookup component with
      | some c => .ok c
      | none => .error .keyError
  | _ => .error .valueError

/-- The three kinds of names that parsers distinguish (math_schema.py:452-456). -/
inductive NameKind where
  | dimensions | inputs | results
  deriving DecidableEq, Repr

/-- `parsing_components` table (math_schema.py:452-456). -/
def NameKind.fields : NameKind → List Field
  | .dimensions => [.dimensions]
  | .inputs => [.lookups, .parameters]
  | .results => [.variables, .globalExpressions]

/-- `_names()` (math_schema.py:458-462): names usable in expressions. -/
def expressionNames (m : MathDef δ) (k : NameKind) : List String :=
  k.fields.flatMap (activeNames m)

/-- `where_names` (math_schema.py:464-470): in addition to the active names, deactivated inputs
and results whose name is not an active input or result. -/
def whereNames (m : MathDef δ) (k : NameKind) : List String :=
  match k with
  | .dimensions => expressionNames m .dimensions
  | k =>
      let allActive := expressionNames m .results ++ expressionNames m .inputs
      let allNames := k.fields.flatMap (fun f => (m f).map Prod.fst)
      expressionNames m k ++ allNames.filter (fun n => !allActive.contains n)

end Math
end Calliope
