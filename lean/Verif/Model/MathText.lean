import Mathlib.Algebra.Field.Rat
import Verif.Model.Checks
import Verif.Model.Variables
import Verif.Model.WhereGrammar

/-!
# Model of making components out of the strings of math files

Source: `/repo/src/calliope/preprocess/model_math.py:57-137`, `/repo/src/calliope/schemas/math_schema.py:34-320`,
`/repo/src/calliope/backend/parsing.py:316-515,560-656` and the calls of helper functions
(`/repo/src/calliope/backend/helper_functions.py`).

The strings are read as in `Model/Grammar.lean` and `Model/WhereGrammar.lean`; what they are read as is brought into the
form that `Model/Build.lean` evaluates.  Numbers are rational.

Simplifications: `AttrDict.union` (`Model/AttrDict.lean`) is written out for the fields of a component; lists of numbers
and of texts as slices, and texts as arguments of helper functions other than names of dimensions, are left out.
-/

namespace Calliope
namespace MathText

open Grammar (Str Ast ARest Arg Args Kws Item WLeaf CRhs SetItem WNames)

/-- The characters of a text, as a list written out. -/
macro "chars! " s:str : term => do
  let cs := (s.getString.toList.map Lean.Syntax.mkCharLit).toArray
  `([$[$cs],*])

/-! ### Files -/

/-- An entry of `equations`, `sub_expressions` or `slices` (math_schema.py:34-46). -/
structure RawItem where
  cond : Option Str
  expr : Str
  deriving DecidableEq

/-- A component as a math file gives it: what is not given is `none`. -/
structure Raw where
  name : Str
  active : Option Bool := none
  foreach : Option (List Str) := none
  cond : Option Str := none
  equations : Option (List RawItem) := none
  subs : List (Str × List RawItem) := []
  slices : List (Str × List RawItem) := []
  lower : Option Str := none
  upper : Option Str := none
  domain : Option Str := none
  order : Option Str := none
  sense : Option Str := none
  message : Option Str := none
  errors : Option Str := none
  deriving DecidableEq

/-- Dimensions, parameters or lookups of these names. -/
def plain (l : List Str) : List Raw := l.map (fun n => { name := n })

/-- A math file. -/
structure File where
  dimensions : List Raw := []
  parameters : List Raw := []
  lookups : List Raw := []
  vars : List Raw := []
  globals : List Raw := []
  constraints : List Raw := []
  objectives : List Raw := []
  postprocessed : List Raw := []
  checks : List Raw := []

/-- What is given last. -/
def later {α : Type} (a b : Option α) : Option α :=
  match b with
  | some x => some x
  | none => a

/-- Entries of `sub_expressions` or `slices`: those of `k` are replaced, or added at the end. -/
def putItem (k : Str) (v : List RawItem) : List (Str × List RawItem) → List (Str × List RawItem)
  | [] => [(k, v)]
  | (k', v') :: r => if k' = k then (k', v) :: r else (k', v') :: putItem k v r

/-- `AttrDict.union(allow_override=True)` of two definitions of a component. -/
def Raw.over (a b : Raw) : Raw where
  name := a.name
  active := later a.active b.active
  foreach := later a.foreach b.foreach
  cond := later a.cond b.cond
  equations := later a.equations b.equations
  subs := b.subs.foldl (fun l p => putItem p.1 p.2 l) a.subs
  slices := b.slices.foldl (fun l p => putItem p.1 p.2 l) a.slices
  lower := later a.lower b.lower
  upper := later a.upper b.upper
  domain := later a.domain b.domain
  order := later a.order b.order
  sense := later a.sense b.sense
  message := later a.message b.message
  errors := later a.errors b.errors

/-- The components of a group with one more definition. -/
def putRaw (r : Raw) : List Raw → List Raw
  | [] => [r]
  | a :: l => if a.name = r.name then a.over r :: l else a :: putRaw r l

/-- `math.union(math_dataset[name], allow_override=True)` (model_math.py:90). -/
def File.over (a b : File) : File where
  dimensions := b.dimensions.foldl (fun l r => putRaw r l) a.dimensions
  parameters := b.parameters.foldl (fun l r => putRaw r l) a.parameters
  lookups := b.lookups.foldl (fun l r => putRaw r l) a.lookups
  vars := b.vars.foldl (fun l r => putRaw r l) a.vars
  globals := b.globals.foldl (fun l r => putRaw r l) a.globals
  constraints := b.constraints.foldl (fun l r => putRaw r l) a.constraints
  objectives := b.objectives.foldl (fun l r => putRaw r l) a.objectives
  postprocessed := b.postprocessed.foldl (fun l r => putRaw r l) a.postprocessed
  checks := b.checks.foldl (fun l r => putRaw r l) a.checks

/-- `active: bool = True` (math_schema.py:56). -/
def Raw.isActive (r : Raw) : Bool := r.active.getD true

/-- A component of that name. -/
def find (n : Str) (l : List Raw) : Option Raw := l.find? (fun r => decide (r.name = n))

/-! ### Names -/

/-- What strings are read with: the names for expressions and the names for `where` strings. -/
structure Kinds where
  expr : Str → Bool
  cond : WNames

/-- The names in expressions, and whether they are active (math_schema.py:452-457). -/
def File.names (m : File) : Grammar.Names :=
  (m.dimensions ++ m.parameters ++ m.lookups ++ m.vars ++ m.globals).map (fun r => (r.name, r.isActive))

/-- The names in `where` strings, what they stand for, and whether they are active. -/
def File.sorts (m : File) : Grammar.WMath :=
  m.dimensions.map (fun r => (r.name, .dim, r.isActive)) ++
    (m.parameters ++ m.lookups).map (fun r => (r.name, .input, r.isActive)) ++
    (m.vars ++ m.globals).map (fun r => (r.name, .result, r.isActive))

/-- What strings are read with when the math is made (model_math.py:108-121). -/
def File.validationKinds (m : File) : Kinds := ⟨Grammar.validationNames m.names, Grammar.validationWhere m.sorts⟩

/-- What strings are read with in the backend (math_schema.py:444-473). -/
def File.kinds (m : File) : Kinds := ⟨Grammar.buildNames m.names, Grammar.buildWhere m.sorts⟩

/-- There is a component of that name. -/
def named (l : List Raw) (s : Str) : Bool := l.any (fun r => decide (r.name = s))

/-- What strings of postprocessed arrays are read with (backend_model.py:381-385). -/
def File.postKinds (m : File) : Kinds :=
  ⟨fun s => m.kinds.expr s || named (m.postprocessed.filter Raw.isActive) s,
    { m.kinds.cond with post := named m.postprocessed, hasPost := !m.postprocessed.isEmpty }⟩

/-! ### Numbers -/

/-- The value of digits. -/
def digits (s : Str) : Nat := s.foldl (fun n c => 10 * n + (c.toNat - 48)) 0

/-- Digits, with a point and digits or not. -/
def decimal (s : Str) : Rat :=
  match s.dropWhile (· ≠ '.') with
  | [] => digits s
  | _ :: f => digits (s.takeWhile (· ≠ '.') ++ f) / (10 ^ f.length : Nat)

/-- A number with a sign or not, without exponent. -/
def number : Str → Rat
  | '-' :: s => -decimal s
  | '+' :: s => decimal s
  | s => decimal s

/-- The text of infinity. -/
def wInf : Str := chars! "inf"

/-- A whole number with a sign or not. -/
def integer : Str → Int
  | '-' :: s => -(digits s : Int)
  | '+' :: s => digits s
  | s => digits s

/-! ### Expressions -/

abbrev Ex := Expr.Ex Rat
abbrev ExRest := Expr.ExRest Rat

/-- An argument of a helper function: as an array, as a list of names, and as a whole number. -/
structure Value where
  ex : Option Ex
  names : Option (List String)
  int : Option Int

/-- The argument with a keyword. -/
def keyword (k : Str) : List (Str × Value) → Option Value
  | [] => none
  | (k', v) :: r => if k' = k then some v else keyword k r

/-- Keywords with whole numbers. -/
def shifts : List (Str × Value) → Option (List (String × Int))
  | [] => some []
  | (k, v) :: r => match v.int, shifts r with
    | some i, some l => some ((String.ofList k, i) :: l)
    | _, _ => none

/-- Keywords with names of arrays. -/
def arrays : List (Str × Value) → Option (List (String × String))
  | [] => some []
  | (k, v) :: r => match v.names, arrays r with
    | some [n], some l => some ((String.ofList k, n) :: l)
    | _, _ => none

/-- `sum(array, over=...)` (helper_functions.py:380-398). -/
def callSum : List Value → List (Str × Value) → Option Ex
  | [a], [(k, v)] => match a.ex, v.names with
    | some t, some l => if k = chars! "over" then some (.sum t l) else none
    | _, _ => none
  | _, _ => none

/-- `roll(array, dim=n)` (helper_functions.py:613-640). -/
def callRoll : List Value → List (Str × Value) → Option Ex
  | [a], ks => match a.ex, shifts ks with
    | some t, some l => some (.roll t l)
    | _, _ => none
  | _, _ => none

/-- `select_from_lookup_arrays(array, dim=lookup)` (helper_functions.py:448-530). -/
def callSelect : List Value → List (Str × Value) → Option Ex
  | [a], ks => match a.ex, arrays ks with
    | some t, some l => some (.select t l)
    | _, _ => none
  | _, _ => none

/-- `where(array, condition)` (helper_functions.py:652-693). -/
def callWhere : List Value → List (Str × Value) → Option Ex
  | [a, c], [] => match a.ex, c.ex with
    | some t, some u => some (.cond t u)
    | _, _ => none
  | _, _ => none

/-- `group_sum(array, groupby, group_dim)` (helper_functions.py:713-780). -/
def callGroupSum : List Value → List (Str × Value) → Option Ex
  | [a, g, d], [] => match a.ex, g.names, d.names with
    | some t, some [g], some [d] => some (.groupSum t g d)
    | _, _, _ => none
  | _, _ => none

/-- `reduce_carrier_dim(array, flow_direction)` (helper_functions.py:412-432). -/
def callReduceCarrier : List Value → List (Str × Value) → Option Ex
  | [a, d], [] => match a.ex, d.names with
    | some t, some [d] => some (.reduceCarrier t d)
    | _, _ => none
  | _, _ => none

/-- `group_datetime(array, over, group)` (helper_functions.py:799-870). -/
def callGroupDatetime : List Value → List (Str × Value) → Option Ex
  | [a, o, g], [] => match a.ex, o.names, g.names with
    | some t, some [o], some [g] => some (.groupDatetime t o g)
    | _, _, _ => none
  | _, _ => none

/-- `sum_next_n(array, over, N)` (helper_functions.py:893-930). -/
def callSumNextN : List Value → List (Str × Value) → Option Ex
  | [a, o, n], [] => match a.ex, o.names, n.int with
    | some t, some [o], some n => some (.sumNextN t o n)
    | _, _, _ => none
  | _, _ => none

/-- The helper functions of expressions (`_registry["expression"]`). -/
def callHelper (f : Str) (as : List Value) (ks : List (Str × Value)) : Option Ex :=
  if f = chars! "sum" then callSum as ks
  else if f = chars! "roll" then callRoll as ks
  else if f = chars! "select_from_lookup_arrays" then callSelect as ks
  else if f = chars! "where" then callWhere as ks
  else if f = chars! "group_sum" then callGroupSum as ks
  else if f = chars! "reduce_carrier_dim" then callReduceCarrier as ks
  else if f = chars! "group_datetime" then callGroupDatetime as ks
  else if f = chars! "sum_next_n" then callSumNextN as ks
  else none

/-- The name of an element of a list. -/
def itemName : Item → Option String
  | .comp s => some (String.ofList s)
  | .text s => some (String.ofList s)
  | .num _ => none

/-- The names of the elements of a list. -/
def itemNames : List Item → Option (List String)
  | [] => some []
  | i :: is => match itemName i, itemNames is with
    | some n, some l => some (n :: l)
    | _, _ => none

/-- A slice of a component: a reference or a label. -/
def slicer : Grammar.Slicer → Option Expr.Slicer
  | .ref s => some (.ref (String.ofList s))
  | .item (.text s) => some (.label (String.ofList s))
  | _ => none

def slicers : List (Str × Grammar.Slicer) → Option (List (String × Expr.Slicer))
  | [] => some []
  | (d, s) :: r => match slicer s, slicers r with
    | some x, some l => some ((String.ofList d, x) :: l)
    | _, _ => none

/-- The name of a component. -/
def nameOf : Ast → Option (List String)
  | .comp s => some [String.ofList s]
  | _ => none

/-- A whole number as an argument. -/
def intOf : Ast → Option Int
  | .num s => some (integer s)
  | .sign .minus (.num s) => some (-integer s)
  | _ => none

mutual
/-- Expressions. -/
def ex : Ast → Option Ex
  | .num s => if s = wInf then none else some (.num (number s))
  | .comp s => some (.comp (String.ofList s))
  | .sliced s l => match slicers l with
    | some l' => some (.sliced (String.ofList s) l')
    | none => none
  | .sub s => some (.sub (String.ofList s))
  | .config _ => none
  | .sign o t => match ex t with
    | some t' => some (.sign o t')
    | none => none
  | .chain t r => match ex t, exRest r with
    | some t', some r' => some (.chain t' r')
    | _, _ => none
  | .call f as ks => match values as, keywords ks with
    | some as', some ks' => callHelper f as' ks'
    | _, _ => none
def exRest : ARest → Option ExRest
  | .one o t => match ex t with
    | some t' => some (.one o t')
    | none => none
  | .more o t r => match ex t, exRest r with
    | some t', some r' => some (.more o t' r')
    | _, _ => none
/-- Arguments of helper functions. -/
def value : Arg → Option Value
  | .ex t => some ⟨ex t, nameOf t, intOf t⟩
  | .list l => some ⟨none, itemNames l, none⟩
  | .text s => some ⟨none, some [String.ofList s], none⟩
def values : Args → Option (List Value)
  | .nil => some []
  | .cons a r => match value a, values r with
    | some v, some l => some (v :: l)
    | _, _ => none
def keywords : Kws → Option (List (Str × Value))
  | .nil => some []
  | .cons k a r => match value a, keywords r with
    | some v, some l => some ((k, v) :: l)
    | _, _ => none
end

/-- `get_val_at_index(dim=i)` (helper_functions.py:533-590). -/
def valAtIndex (f : Str) (as : Args) (ks : Kws) : Option (String × Int) :=
  if f = chars! "get_val_at_index" then
    match as, ks with
    | .nil, .cons d (.ex t) .nil => match intOf t with
      | some i => some (String.ofList d, i)
      | none => none
    | _, _ => none
  else none

/-- `roll(lookup, dim=n)` as a slice. -/
def rolledLookup (f : Str) (as : Args) (ks : Kws) : Option Expr.SliceDef :=
  if f = chars! "roll" then
    match as, keywords ks with
    | .cons (.ex (.comp s)) .nil, some ks' => match shifts ks' with
      | some l => some (.lookup (String.ofList s) l)
      | none => none
    | _, _ => none
  else none

/-- Expressions of slices. -/
def sliceDef : Arg → Option Expr.SliceDef
  | .ex (.comp s) => some (.lookup (String.ofList s) [])
  | .ex (.call f as ks) => match valAtIndex f as ks with
    | some (d, i) => some (.valAt d i)
    | none => rolledLookup f as ks
  | .text s => some (.label (String.ofList s))
  | _ => none

/-! ### Conditions -/

/-- The name and the dimensions of `f(name, over=...)`. -/
def nameOver (f g : Str) (as : Args) (ks : Kws) : Option (Str × List String) :=
  if f = g then
    match as, ks with
    | .cons (.ex (.comp s)) .nil, .cons k v .nil =>
      if k = chars! "over" then
        match value v with
        | some v' => match v'.names with
          | some l => some (s, l)
          | none => none
        | none => none
      else none
    | _, _ => none
  else none

/-- An array in a comparison: a dimension, an input or a result, in this order (where_parser.py:545-553). -/
def lhsComp (k : Kinds) (s : Str) : Where.Lhs :=
  if k.cond.dims s then .dim (String.ofList s)
  else if k.cond.inputs s then .input (String.ofList s)
  else .result (String.ofList s)

/-- Left-hand sides of comparisons, without arithmetic. -/
def lhs (k : Kinds) : Ast → Option Where.Lhs
  | .num s => if s = wInf then none else some (.num (number s))
  | .comp s => some (lhsComp k s)
  | .config s => some (.config (String.ofList s))
  | .call f as ks => match valAtIndex f as ks with
    | some (d, i) => some (.valAt d i)
    | none => match nameOver f (chars! "sum") as ks with
      | some (s, l) => some (.total (String.ofList s) l)
      | none => none
  | _ => none

/-- Right-hand sides of comparisons. -/
def rhs : CRhs → Option Where.Rhs
  | .call f as ks => match valAtIndex f as ks with
    | some (d, i) => some (.valAt d i)
    | none => none
  | .bool b => some (.bool b)
  | .num s => if s = wInf then some .inf else some (.num (number s))
  | .text s => some (.str (String.ofList s))

/-- Elements of subsets. -/
def setItems : List SetItem → Option (List Where.Val)
  | [] => some []
  | .text s :: r => match setItems r with
    | some l => some (.str (String.ofList s) :: l)
    | none => none
  | .num s :: r => match setItems r with
    | some l => some (.num (number s) :: l)
    | none => none
  | .config _ :: _ => none

/-- Operands of `where` strings. -/
def leaf (k : Kinds) : WLeaf → Option Where.Leaf
  | .bool b => some (.bool b)
  | .input s => some (.input (String.ofList s))
  | .result s => some (.result (String.ofList s))
  | .cmp l o r => match lhs k l, rhs r with
    | some l', some r' => some (.cmp l' o r')
    | _, _ => none
  | .call f as ks => match nameOver f (chars! "any") as ks with
    | some (s, l) => some (if k.cond.inputs s then .anyInput (String.ofList s) l else .anyResult (String.ofList s) l)
    | none => none
  | .isIn l d => match setItems l with
    | some l' => some (.isIn l' (String.ofList d))
    | none => none

mutual
/-- `where` strings. -/
def cond (k : Kinds) : Infix.Tree Where.Op WLeaf → Option Build.Cond
  | .atom l => match leaf k l with
    | some x => some (.atom x)
    | none => none
  | .pre o t => match cond k t with
    | some x => some (.pre o x)
    | none => none
  | .chain t r => match cond k t, conds k r with
    | some x, some y => some (.chain x y)
    | _, _ => none
def conds (k : Kinds) : Infix.Rest Where.Op WLeaf → Option (Infix.Rest Where.Op Where.Leaf)
  | .one o t => match cond k t with
    | some x => some (.one o x)
    | none => none
  | .more o t r => match cond k t, conds k r with
    | some x, some y => some (.more o x y)
    | _, _ => none
end

/-! ### Components -/

/-- `where: str = "True"` (math_schema.py:37,127). -/
def wTrue : Str := chars! "True"

/-- A `where` string, read (parsing.py:587-606). -/
def readCond (k : Kinds) (s : Option Str) : Option Build.Cond :=
  match Grammar.readWhere k.cond (s.getD wTrue) with
  | some t => cond k t
  | none => none

/-- The text of a comparison operator. -/
def cmpText : Where.CmpOp → String
  | .lt => "<"
  | .gt => ">"
  | .eq => "=="
  | .ge => ">="
  | .le => "<="

/-- The expression of a constraint (parsing.py:330-345). -/
def readEquation (k : Kinds) (s : Str) : Option (Expand.Body Rat) :=
  match Grammar.readEquation k.expr s with
  | none => none
  | some (l, o, r) => match ex l, ex r with
    | some l', some r' => some (.cmp l' (cmpText o) r')
    | _, _ => none

/-- The expression of a global expression, an objective or a postprocessed array. -/
def readArithmetic (k : Kinds) (s : Str) : Option (Expand.Body Rat) :=
  match Grammar.readArithmetic k.expr s with
  | none => none
  | some t => match ex t with
    | some t' => some (.arith t')
    | none => none

/-- A sub-expression. -/
def readSub (k : Kinds) (s : Str) : Option Ex :=
  match Grammar.readSub k.expr s with
  | none => none
  | some t => ex t

/-- A slice. -/
def readSlice (k : Kinds) (s : Str) : Option Expr.SliceDef :=
  match Grammar.readSlice k.expr s with
  | none => none
  | some a => sliceDef a

/-- `generate_expression_list` (parsing.py:608-656). -/
def readItems {α : Type} (k : Kinds) (read : Str → Option α) : List RawItem → Option (List (Build.Cond × α))
  | [] => some []
  | e :: es => match readCond k e.cond, read e.expr, readItems k read es with
    | some c, some x, some l => some ((c, x) :: l)
    | _, _, _ => none

/-- `sub_expressions` and `slices` (parsing.py:470-498). -/
def readTable {α : Type} (k : Kinds) (read : Str → Option α) :
    List (Str × List RawItem) → Option (List (String × List (Build.Cond × α)))
  | [] => some []
  | (n, l) :: r => match readItems k read l, readTable k read r with
    | some l', some r' => some ((String.ofList n, l') :: r')
    | _, _ => none

/-- A component with its strings read (parsing.py:316-515); `body` reads its expressions. -/
def readComponent (k : Kinds) (body : Str → Option (Expand.Body Rat)) (r : Raw) : Option (Build.Component Rat) :=
  match readCond k r.cond, readItems k body (r.equations.getD []), readTable k (readSub k) r.subs,
    readTable k (readSlice k) r.slices with
  | some c, some es, some ss, some ls =>
    some ⟨(r.foreach.getD []).map String.ofList, c, ⟨String.ofList r.name, es, ss, ls⟩⟩
  | _, _, _, _ => none

/-- A constraint. -/
def readConstraint (k : Kinds) (r : Raw) : Option (Build.Component Rat) := readComponent k (readEquation k) r

/-- A global expression, an objective or a postprocessed array. -/
def readExpression (k : Kinds) (r : Raw) : Option (Build.Component Rat) := readComponent k (readArithmetic k) r

/-- `bounds` (math_schema.py:213-225): a number, infinity or the name of an input. -/
def readBound (s : Option Str) : BaseMath.Bound Rat :=
  match s with
  | none => .unbounded
  | some [] => .unbounded
  | some (c :: r) =>
    if (c :: r) = chars! ".inf" || (c :: r) = chars! "-.inf" then .unbounded
    else if c.isDigit then .num (number (c :: r))
    else .input (String.ofList (c :: r))

/-- A variable. -/
def readVariable (k : Kinds) (r : Raw) : Option (BaseMath.Variable Rat) :=
  match readCond k r.cond with
  | some c => some ⟨String.ofList r.name, (r.foreach.getD []).map String.ofList, c,
      decide (r.domain = some (chars! "integer")), readBound r.lower, readBound r.upper⟩
  | none => none

/-- A check (math_schema.py:309-319). -/
def readCheck (k : Kinds) (r : Raw) : Option BaseMath.Check :=
  match readCond k r.cond with
  | some c => some ⟨String.ofList r.name, c, String.ofList (r.message.getD []),
      decide (r.errors ≠ some (chars! "warn")), r.isActive⟩
  | none => none

/-! ### The whole math -/

/-- `order: int = 0` (math_schema.py:220). -/
def Raw.position (r : Raw) : Int :=
  match r.order with
  | some s => integer s
  | none => 0

/-- After those that come before or together with it. -/
def insertRaw (r : Raw) : List Raw → List Raw
  | [] => [r]
  | a :: l => if r.position < a.position then r :: a :: l else a :: insertRaw r l

/-- `_sorted_by_order` (backend_model.py:677-680). -/
def ordered (l : List Raw) : List Raw := l.foldl (fun s r => insertRaw r s) []

/-- All components of a list, read. -/
def readList {α : Type} (f : Raw → Option α) : List Raw → Option (List α)
  | [] => some []
  | r :: l => match f r, readList f l with
    | some x, some xs => some (x :: xs)
    | _, _ => none

/-- The components of a group in the order in which they are added (backend_model.py:629-640,691-700): those that are not
active are passed over (backend_model.py:371-374). -/
def readGroup {α : Type} (f : Raw → Option α) (l : List Raw) : Option (List α) :=
  readList f ((ordered l).filter Raw.isActive)

/-- The math of a model, read. -/
structure Math where
  vars : List (BaseMath.Variable Rat)
  globals : List (Build.Component Rat)
  constraints : List (Build.Component Rat)
  objectives : List (Build.Component Rat)
  postprocessed : List (Build.Component Rat)
  checks : List BaseMath.Check

/-- The components that a backend makes. -/
def File.read (m : File) : Option Math :=
  match readGroup (readVariable m.kinds) m.vars, readGroup (readExpression m.kinds) m.globals,
    readGroup (readConstraint m.kinds) m.constraints, readGroup (readExpression m.kinds) m.objectives,
    readGroup (readExpression m.postKinds) m.postprocessed, readGroup (readCheck m.kinds) m.checks with
  | some v, some g, some c, some o, some p, some k => some ⟨v, g, c, o, p, k⟩
  | _, _, _, _, _, _ => none

/-- `get_math_priority` (model_math.py:57-64). -/
def priority (mode : Str) (extra : List Str) : List Str :=
  chars! "base" :: ((if mode ≠ chars! "base" then [mode] else []) ++ extra)

/-- The names of the active components of each group (math_schema.py:425-432). -/
def File.groups (m : File) : List (List Str) :=
  [m.dimensions, m.parameters, m.lookups, m.vars, m.globals, m.constraints, m.objectives, m.postprocessed, m.checks].map
    (fun l => (l.filter Raw.isActive).map Raw.name)

/-- No name is in two groups. -/
def distinct : List (List Str) → Bool
  | [] => true
  | g :: gs => g.all (fun n => gs.all (fun h => !h.contains n)) && distinct gs

/-- Equations are given if the component is active (math_schema.py:150-155). -/
def Raw.complete (r : Raw) : Bool := !r.isActive || !(r.equations.getD []).isEmpty

/-- `CalliopeBuildMath(**math)` (model_math.py:94): `unique_component_names` (math_schema.py:422-442) and
`must_have_equations_if_active`.  Simplification: the types of fields are not looked at. -/
def File.accepted (m : File) : Bool :=
  distinct m.groups && (m.globals ++ m.constraints ++ m.objectives ++ m.postprocessed).all Raw.complete

/-- The math that is asked for, one file over the other (model_math.py:87-93); `none` is `ModelError`. -/
def merge (data : Str → Option File) (m : File) : List Str → Option File
  | [] => some m
  | n :: ns => match data n with
    | some f => merge data (m.over f) ns
    | none => none

/-- `build_math` (model_math.py:67-96) without validation of strings; `none` is `ModelError` or `ValidationError`. -/
def buildMath (data : Str → Option File) (ns : List Str) : Option File :=
  match merge data {} ns with
  | none => none
  | some m => if m.accepted then some m else none

/-! ### Validation of strings -/

/-- The string is read (parsing.py:560-585). -/
def parses {α : Type} (x : Option α) : Bool := x.isSome

/-- `where` strings and expressions of `equations`, `sub_expressions` or `slices` (parsing.py:641-646). -/
def itemsParse (k : Kinds) (read : Str → Bool) (l : List RawItem) : Bool :=
  l.all (fun e => parses (Grammar.readWhere k.cond (e.cond.getD wTrue)) && read e.expr)

/-- The strings of a component (parsing.py:453-498): `parse_top_level_where` and `parse_equations`. -/
def componentParses (k : Kinds) (read : Str → Bool) (r : Raw) : Bool :=
  parses (Grammar.readWhere k.cond (r.cond.getD wTrue)) && itemsParse k read (r.equations.getD []) &&
    r.subs.all (fun p => itemsParse k (fun s => parses (Grammar.readSub k.expr s)) p.2) &&
    r.slices.all (fun p => itemsParse k (fun s => parses (Grammar.readSlice k.expr s)) p.2)

def equationParses (k : Kinds) (s : Str) : Bool := parses (Grammar.readEquation k.expr s)

def arithmeticParses (k : Kinds) (s : Str) : Bool := parses (Grammar.readArithmetic k.expr s)

/-- The strings of variables, global expressions, constraints and objectives are read, for the components that `p` holds
of. -/
def File.parsesWith (m : File) (k : Kinds) (p : Raw → Bool) : Bool :=
  (m.vars.filter p).all (fun r => parses (Grammar.readWhere k.cond (r.cond.getD wTrue))) &&
    (m.globals.filter p).all (componentParses k (arithmeticParses k)) &&
    (m.constraints.filter p).all (componentParses k (equationParses k)) &&
    (m.objectives.filter p).all (componentParses k (arithmeticParses k))

/-- `_validate_math_string_parsing` (model_math.py:99-137): all components of these groups, active or not.
Simplifications: references to sub-expressions and slices that are not defined are in `Model/Expand.lean`; no piecewise
constraints. -/
def File.validates (m : File) : Bool := m.parsesWith m.validationKinds (fun _ => true)

/-- The strings are read when the problem is built (backend_model.py:366-400): components that are not active are passed
over. -/
def File.builds (m : File) : Bool := m.parsesWith m.kinds Raw.isActive

end MathText
end Calliope
