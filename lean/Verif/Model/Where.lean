import Verif.Model.AttrDict
import Verif.Model.Grid
import Verif.Model.Infix

/-!
# Model of `where` strings and of the mask of a component

Source: `/repo/src/calliope/backend/where_parser.py`, `/repo/src/calliope/backend/parsing.py:175-274,701-800`,
`/repo/src/calliope/backend/helper_functions.py:195-346,533-590`,
`/repo/src/calliope/backend/backend_model.py:401-459,574-598`.

Simplifications: the arithmetic of numpy on single values is a parameter (`Env.arith`); dates are
represented by their text, which orders them the same way; user-defined helper functions are left out; the
sum of a result inside a `where` string (possible in post-processing only) is given (`Env.sums`).
-/

namespace Calliope
namespace Where

open Grid Infix

/-- One value of an input array; numbers are rational, so rounding is left out. -/
inductive Val where
  | nan
  | num (q : Rat)
  | posInf
  | negInf
  | bool (b : Bool)
  | str (s : String)
  deriving DecidableEq, Repr

/-- `dtype.kind` of an array, as far as it is distinguished. -/
inductive Kind where
  | number | boolean | text
  deriving DecidableEq, Repr

/-- An entry of `self.inputs` with the default of its definition in the math. -/
structure Input where
  kind : Kind
  arr : Arr Val
  default : Val

/-- The definition of a parameter or lookup in the math. -/
structure InputDef where
  lookup : Bool
  kind : Kind
  default : Val

/-- `_add_inputs` (backend_model.py:574-598): an input that is not in the data is a scalar, NaN for
parameters and the default for lookups. -/
def addInput (d : InputDef) (data : Option (Arr Val)) : Input :=
  match data with
  | some a => ⟨d.kind, a, d.default⟩
  | none => ⟨d.kind, scalar (if d.lookup then d.default else .nan), d.default⟩

/-- What a `where` string is evaluated in (`EvalAttrs`). -/
structure Env where
  /-- the dimensions of the input data and their labels -/
  dims : List String
  coords : String → List Label
  /-- `input_data` -/
  input : String → Input
  /-- `backend_data[name].notnull()`; `none`: not in the dataset -/
  result : String → Option (Arr Bool)
  /-- `build_config`; `none`: no such option, or not a number, string or Boolean -/
  config : String → Option Val
  /-- `input_data.definition_matrix` -/
  matrix : Arr Bool
  /-- numpy arithmetic on values -/
  arith : String → Val → Val → Val
  /-- `backend_data[name]`, the numbers of a result; only postprocessed arrays may compare them -/
  number : String → Option (Arr Val) := fun _ => none
  /-- the sum of the numbers of a result over dimensions (`sum(name, over=...)`, helper_functions.py:365-398) -/
  sums : String → List String → Option (Arr Val) := fun _ _ => none

/-- A number's place in the order of extended numbers; Booleans count as 0 and 1. -/
def Val.key : Val → Option (Int × Rat)
  | .num q => some (0, q)
  | .bool b => some (0, if b then 1 else 0)
  | .posInf => some (1, 0)
  | .negInf => some (-1, 0)
  | .nan => none
  | .str _ => none

/-- Whether a value is a number (NaN included) for numpy. -/
def Val.numeric : Val → Bool
  | .str _ => false
  | _ => true

/-- Comparison operators (where_parser.py:442). -/
inductive CmpOp where
  | lt | gt | eq | ge | le
  deriving DecidableEq, Repr

/-- Strictly less. -/
def keyLt (a b : Int × Rat) : Bool := decide (a.1 < b.1) || (decide (a.1 = b.1) && decide (a.2 < b.2))

/-- Comparing two values (where_parser.py:251-265).  `none`: `TypeError`, ordering text and numbers. -/
def cmpVal (o : CmpOp) (l r : Val) : Option Bool :=
  match o with
  | .eq => match l, r with
    | .str a, .str b => some (decide (a = b))
    | l, r => match l.key, r.key with
      | some a, some b => some (decide (a = b))
      | _, _ => some false
  | o => match l, r with
    | .str a, .str b => match o with
      | .lt => some (decide (a < b))
      | .gt => some (decide (b < a))
      | .le => some (!decide (b < a))
      | _ => some (!decide (a < b))
    | l, r =>
      if l.numeric && r.numeric then
        match l.key, r.key with
        | some a, some b => match o with
          | .lt => some (keyLt a b)
          | .gt => some (keyLt b a)
          | .le => some (!keyLt b a)
          | _ => some (!keyLt a b)
        | _, _ => some false
      else none

/-- `coords[dim][i]` with Python indexing. -/
def pyIndex (l : List Label) (i : Int) : Option Label :=
  if 0 ≤ i then l[i.toNat]?
  else if 0 ≤ l.length + i then l[(l.length + i).toNat]?
  else none

/-- Left-hand sides of comparisons (where_parser.py:545-556); results and sums of results in postprocessed arrays
only (where_parser.py:552-553). -/
inductive Lhs where
  | num (q : Rat)
  | dim (d : String)
  | input (p : String)
  | config (o : String)
  | valAt (d : String) (i : Int)
  | op (o : String) (l r : Lhs)
  | result (n : String)
  | total (n : String) (over : List String)
  deriving DecidableEq

/-- Right-hand sides of comparisons (where_parser.py:558-566); `inf` is a number
(expression_parser.py:1072-1073). -/
inductive Rhs where
  | bool (b : Bool)
  | num (q : Rat)
  | inf
  | str (s : String)
  | valAt (d : String) (i : Int)
  deriving DecidableEq

/-- `any` or `all` in `defined`. -/
inductive How where
  | any | all
  deriving DecidableEq, Repr

/-- Operands of `where` strings (where_parser.py:578-580). -/
inductive Leaf where
  | bool (b : Bool)
  | input (p : String)
  | result (r : String)
  | cmp (l : Lhs) (o : CmpOp) (r : Rhs)
  | isIn (items : List Val) (d : String)
  | anyInput (p : String) (over : List String)
  | anyResult (r : String) (over : List String)
  | defined (sel : List (String × List Label)) (within : String) (how : How)
  deriving DecidableEq

/-- The array of a dimension: its labels along itself. -/
def dimArr (d : String) : Arr Val := ⟨[d], fun c => match c with
  | [l] => .str l
  | _ => .nan⟩

/-- `get_val_at_index` (helper_functions.py:533-590). -/
def valAt (e : Env) (d : String) (i : Int) : Except Err (Arr Val) :=
  if e.dims.contains d then
    match pyIndex (e.coords d) i with
    | some l => .ok (scalar (.str l))
    | none => .error .indexError
  else .error .keyError

/-- `da.fillna(default)` (where_parser.py:189-192). -/
def fillDefault (default v : Val) : Val := if v = .nan then default else v

/-- The left-hand side of a comparison: inputs as values, not as conditions
(where_parser.py:100-111,144-149,184-193,221-224; `apply_where=False`). -/
def evalLhs (e : Env) : Lhs → Except Err (Arr Val)
  | .num q => .ok (scalar (.num q))
  | .dim d => .ok (if e.dims.contains d then dimArr d else scalar .nan)
  | .input p => .ok (map (fillDefault (e.input p).default) (e.input p).arr)
  | .config o => match e.config o with
    | some v => .ok (scalar v)
    | none => .error .backendError
  | .valAt d i => valAt e d i
  | .op o l r => match evalLhs e l with
    | .error x => .error x
    | .ok a => match evalLhs e r with
      | .error x => .error x
      | .ok b => .ok (zip (e.arith o) a b)
  | .result n => match e.number n with
    | some a => .ok a
    | none => .error .keyError
  | .total n over => match e.sums n over with
    | some a => .ok a
    | none => .error .keyError

/-- The right-hand side of a comparison. -/
def evalRhs (e : Env) : Rhs → Except Err (Arr Val)
  | .bool b => .ok (scalar (.bool b))
  | .num q => .ok (scalar (.num q))
  | .inf => .ok (scalar .posInf)
  | .str s => .ok (scalar (.str s))
  | .valAt d i => valAt e d i

/-- Whether a value counts as given in a condition (where_parser.py:187-188). -/
def given (k : Kind) (v : Val) : Bool :=
  match k with
  | .boolean => decide (v = .bool true)
  | _ => decide (v ≠ .nan) && decide (v ≠ .posInf) && decide (v ≠ .negInf)

/-- The array of an input as a condition (`InputArrayParser.as_array`). -/
def inputCond (i : Input) : Arr Bool := map (given i.kind) i.arr

/-- The labels `sel` for the dimensions it names. -/
def restrict (sel : List (String × List Label)) (coords : String → List Label) : String → List Label :=
  fun d => (sel.lookup d).getD (coords d)

/-- `getattr(da, how)`. -/
def howFn : How → List Bool → Bool
  | .any, l => l.any id
  | .all, l => l.all id

/-- `defined(...)` (helper_functions.py:239-329): `any` over the dimensions not mentioned, then `how` over
the given labels of the dimensions mentioned. -/
def evalDefined (e : Env) (sel : List (String × List Label)) (within : String) (how : How) :
    Except Err (Arr Bool) :=
  let names := sel.map Prod.fst
  if (within :: names).all (e.matrix.dims.contains ·) then
    if sel.all (fun p => p.2.all ((e.coords p.1).contains ·)) then
      let other := e.matrix.dims.filter (fun d => !(within :: names).contains d)
      .ok (reduce (restrict sel e.coords) (howFn how) names
        (reduce e.coords (howFn .any) other e.matrix))
    else .error .keyError
  else .error .valueError

/-- An operand as an array of conditions. -/
def evalLeaf (e : Env) : Leaf → Except Err (Arr Bool)
  | .bool b => .ok (scalar b)
  | .input p => .ok (inputCond (e.input p))
  | .result r => match e.result r with
    | some a => .ok a
    | none => .error .keyError
  | .cmp l o r => match evalLhs e l with
    | .error x => .error x
    | .ok a => match evalRhs e r with
      | .error x => .error x
      | .ok b =>
        let c := zip (cmpVal o) a b
        if (cells e.coords c.dims).any (fun k => (c.val k).isNone) then .error .typeError
        else .ok (map (fun v => v.getD false) c)
  | .isIn items d =>
      .ok (map (fun v => items.contains v) (if e.dims.contains d then dimArr d else scalar .nan))
  | .anyInput p over => .ok (reduce e.coords (howFn .any) over (inputCond (e.input p)))
  | .anyResult r over => match e.result r with
    | some a => .ok (reduce e.coords (howFn .any) over a)
    | none => .error .keyError
  | .defined sel within how => evalDefined e sel within how

/-- Operators of `where` strings. -/
inductive Op where
  | not | and | or
  deriving DecidableEq, Repr

/-- `where_parser` (where_parser.py:478-499): AND and OR are one level. -/
def levels : Levels Op where
  prefixOp o := decide (o = .not)
  bins := [fun o => decide (o = .and) || decide (o = .or)]

/-- `_operate` (where_parser.py:53-62). -/
def operate : Op → Bool → Bool → Bool
  | .and, a, b => a && b
  | .or, a, b => a || b
  | .not, a, _ => a

mutual
/-- `EvalNot.as_array`, `EvalAndOr.as_array` (where_parser.py:23-72, expression_parser.py:258-267). -/
def evalTree (e : Env) : Tree Op Leaf → Except Err (Arr Bool)
  | .atom l => evalLeaf e l
  | .pre _ t => match evalTree e t with
    | .error x => .error x
    | .ok a => .ok (map (fun b => !b) a)
  | .chain t r => match evalTree e t with
    | .error x => .error x
    | .ok a => evalRest e a r
def evalRest (e : Env) (acc : Arr Bool) : Rest Op Leaf → Except Err (Arr Bool)
  | .one o t => match evalTree e t with
    | .error x => .error x
    | .ok a => .ok (zip (operate o) acc a)
  | .more o t r => match evalTree e t with
    | .error x => .error x
    | .ok a => evalRest e (zip (operate o) acc a) r
end

/-! ### The mask of a component -/

/-- `combine_definition_matrix_and_foreach` (parsing.py:701-735). -/
def foreachMask (e : Env) (sets : List String) : Arr Bool :=
  let add := sets.filter (fun d => !e.matrix.dims.contains d)
  if add.any (fun d => !e.dims.contains d) then scalar false
  else add.foldl (fun a d => zip (fun x y => x && y) a ⟨[d], fun _ => true⟩) e.matrix

/-- `functools.reduce(operator.and_, [initial_where, *evaluated_wheres])` (parsing.py:246-260). -/
def evalWheres (e : Env) : Arr Bool → List (Tree Op Leaf) → Except Err (Arr Bool)
  | acc, [] => .ok acc
  | acc, t :: ts => match evalTree e t with
    | .error x => .error x
    | .ok a => evalWheres e (zip (fun x y => x && y) acc a) ts

/-- `drop_dims_not_in_foreach` (parsing.py:262-274). -/
def dropDims (e : Env) (sets : List String) (w : Arr Bool) : Except Err (Arr Bool) :=
  match transpose sets
      (reduce e.coords (howFn .any) (w.dims.filter (fun d => !sets.contains d)) w) with
  | some a => .ok a
  | none => .error .valueError

/-- `generate_top_level_where_array` with its default arguments (parsing.py:737-800). -/
def topLevel (e : Env) (sets : List String) (w : Tree Op Leaf) : Except Err (Arr Bool) :=
  let f := foreachMask e sets
  if anyCell e.coords f then
    match evalWheres e f [w] with
    | .error x => .error x
    | .ok a => if anyCell e.coords a then dropDims e sets a else .ok a
  else .ok f

/-- The mask of one equation (backend_model.py:436-449): `none`, no item.  `ws` are the conditions of the
equation and of its sub-expressions and slices. -/
def equationMask (e : Env) (sets : List String) (top : Tree Op Leaf) (ws : List (Tree Op Leaf)) :
    Except Err (Option (Arr Bool)) :=
  match topLevel e sets top with
  | .error x => .error x
  | .ok t =>
    if anyCell e.coords t then
      match evalWheres e t ws with
      | .error x => .error x
      | .ok a =>
        if anyCell e.coords a then
          match dropDims e sets a with
          | .error x => .error x
          | .ok m => .ok (some m)
        else .ok none
    else .ok none

end Where
end Calliope
