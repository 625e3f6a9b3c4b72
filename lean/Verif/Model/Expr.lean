import Verif.Model.AttrDict
import Verif.Model.Grid
import Verif.Model.Arith

/-!
# Model of evaluating expression strings over arrays

Source: `/repo/src/calliope/backend/expression_parser.py`, `/repo/src/calliope/backend/helper_functions.py`,
`/repo/src/calliope/backend/parsing.py:330-371`.

A value of type `Option V` is one item of an array: `none` is NaN, `some v` a number, a decision variable
or an expression of the optimisation package.

Simplifications: the element-wise arithmetic of numpy and of the optimisation package is a parameter
(`Env.op`, `Env.neg`, addition on `V`); slices select labels on distinct dimensions, given directly, by a
`$reference` to a label, to `get_val_at_index`, or to an input that holds labels, rolled or not; the condition of `where(...)` is an expression whose values count as true by
`Env.truthy`; user-defined helper functions are left out.
-/

namespace Calliope
namespace Expr

open Grid

/-- What can stand after `=` in `component[dim=...]`. -/
inductive Slicer where
  | label (l : Label)
  | ref (name : String)
  deriving DecidableEq, Repr

/-- Expressions of `slices`. -/
inductive SliceDef where
  | label (l : Label)
  | valAt (dim : String) (i : Int)
  /-- an input that holds labels, or `roll` of it -/
  | lookup (name : String) (shifts : List (String × Int))
  deriving DecidableEq, Repr

mutual
/-- Parsed arithmetic: numbers, components, sliced components, references to sub-expressions, signs,
operator chains and helper functions (expression_parser.py:1081-1119,1230-1272). -/
inductive Ex (V : Type) where
  | num (v : V)
  | comp (name : String)
  | sliced (name : String) (slices : List (String × Slicer))
  | sub (name : String)
  | sign (o : Arith.Op) (t : Ex V)
  | chain (t : Ex V) (r : ExRest V)
  | sum (t : Ex V) (over : List String)
  | reduceCarrier (t : Ex V) (flow : String)
  | cond (t c : Ex V)
  | roll (t : Ex V) (shifts : List (String × Int))
  | groupSum (t : Ex V) (groupby groupDim : String)
  | groupDatetime (t : Ex V) (over group : String)
  | sumNextN (t : Ex V) (over : String) (n : Int)
  | select (t : Ex V) (lookups : List (String × String))
inductive ExRest (V : Type) where
  | one (o : Arith.Op) (t : Ex V)
  | more (o : Arith.Op) (t : Ex V) (r : ExRest V)
end

/-- An array of `backend_data` or `input_data`, with the default of its definition. -/
structure Comp (V : Type) where
  arr : Arr (Option V)
  default : Option V

/-- What an expression is evaluated in. -/
structure Env (V : Type) where
  coords : String → List Label
  /-- the component arrays defined so far -/
  comp : String → Option (Comp V)
  /-- names of dimensions -/
  isDim : String → Bool
  /-- inputs that hold labels of a dimension -/
  lookup : String → Option (Arr (Option Label))
  /-- `carrier_in` and `carrier_out` -/
  carrier : String → Option (Arr Bool)
  /-- the group of a time step, e.g. its month -/
  period : String → Label → Label
  op : Arith.Op → Option V → Option V → Option V
  neg : Option V → Option V
  truthy : V → Bool

variable {V : Type}

/-- Results of evaluation. -/
abbrev Res (V : Type) := Except Err (Arr (Option V))

/-- `evaluated.where(where_array)` (expression_parser.py:206-214). -/
def maskArr (w : Arr Bool) (a : Arr (Option V)) : Arr (Option V) :=
  zip (fun v m => if m then v else none) a w

/-- `evaluated.fillna(default)` (expression_parser.py:812-815): nothing to fill in if no cell is missing, or
if the default is. -/
def fill (default v : Option V) : Option V :=
  match v with
  | some x => some x
  | none => default

/-- `EvalUnslicedComponent.as_array` (expression_parser.py:794-818). -/
def compArr (E : Env V) (name : String) : Res V :=
  match E.comp name with
  | some c => .ok (map (fill c.default) c.arr)
  | none => if E.isDim name then .ok (scalar none) else .error .backendError

/-- `coords[dim][i]` with Python indexing. -/
def pyIndex (l : List Label) (i : Int) : Option Label :=
  if 0 ≤ i then l[i.toNat]?
  else if 0 ≤ l.length + i then l[(l.length + i).toNat]?
  else none

/-- `sum(min_count=1, skipna=True)` of some values. -/
def sumPresent [Zero V] [Add V] (l : List (Option V)) : Option V :=
  if l.all Option.isNone then none else some (l.filterMap id).sum

/-- `Sum.as_array` (helper_functions.py:379-397). -/
def sumArr [Zero V] [Add V] (coords : String → List Label) (over : List String)
    (a : Arr (Option V)) : Arr (Option V) :=
  reduce coords sumPresent over a

/-- Position `i` of a dimension rolled by `n`: what was `n` places before, cyclically. -/
def shiftLabel (labels : List Label) (n : Int) (l : Label) : Label :=
  labels.getD (((labels.idxOf l : Int) - n) % (labels.length : Int)).toNat l

/-- The labels `c` of the dimensions `dims`, that of `d` replaced by `f` of it. -/
def atDim (f : Label → Label) (d : String) : List String → List Label → List Label
  | x :: xs, l :: ls => (if x = d then f l else l) :: atDim f d xs ls
  | _, c => c

/-- `array.roll({d: n})`. -/
def rollArr (coords : String → List Label) (d : String) (n : Int) (a : Arr (Option V)) :
    Arr (Option V) :=
  ⟨a.dims, fun c => a.val (atDim (shiftLabel (coords d) n) d a.dims c)⟩

/-- `Roll.as_array` (helper_functions.py:614-640). -/
def rollAll (coords : String → List Label) : List (String × Int) → Arr (Option V) → Res V
  | [], a => .ok a
  | (d, n) :: rest, a =>
    if a.dims.contains d then rollAll coords rest (rollArr coords d n a) else .error .valueError

/-- `condition.fillna(False).astype(bool)` (helper_functions.py:693). -/
def holds (E : Env V) (c : Option V) : Bool :=
  match c with
  | some x => E.truthy x
  | none => false

/-- `Where.as_array` (helper_functions.py:655-693). -/
def condArr (E : Env V) (a c : Arr (Option V)) : Arr (Option V) :=
  zip (fun v m => if holds E m then v else none) a c

/-- `GroupSum.as_array` (helper_functions.py:715-772).  No group at all, and a group dimension that the rest of
the array already has, are errors of `xr.concat`. -/
def groupArr [Zero V] [Add V] (coords : String → List Label) (a : Arr (Option V))
    (g : Arr (Option Label)) (groupDim : String) : Res V :=
  if g.dims.all (a.dims.contains ·) then
    if (cells coords g.dims).all (fun c => (g.val c).isNone) then .error .valueError
    else
      let kept := a.dims.filter (fun d => !g.dims.contains d)
      if kept.contains groupDim then .error .valueError else
      .ok ⟨groupDim :: kept, fun c => match c with
        | [] => none
        | l :: c => sumPresent (((cells coords g.dims).filter (fun k => decide (g.val k = some l))).map
            (fun k => a.val (pick (kept ++ g.dims) (c ++ k) a.dims)))⟩
  else .error .valueError

/-- `l[i:j]`, with Python's meaning of a negative `j`. -/
def pySlice (l : List Label) (i : Nat) (j : Int) : List Label :=
  (l.take (if 0 ≤ j then j else l.length + j).toNat).drop i

/-- `SumNextN.as_array` (helper_functions.py:861-910). -/
def nextArr [Zero V] [Add V] (coords : String → List Label) (d : String) (n : Int)
    (a : Arr (Option V)) : Res V :=
  if a.dims.contains d then
    .ok ⟨a.dims, fun c =>
      let i := (coords d).idxOf ((pick a.dims c [d]).headD "")
      sumPresent ((pySlice (coords d) i (i + n)).map (fun l => a.val (atDim (fun _ => l) d a.dims c)))⟩
  else .error .valueError

/-- The label each lookup array holds at a cell; `none` if one is missing or is no label of its dimension
(helper_functions.py:506-524). -/
def lookLabels (coords : String → List Label) (dims : List String) (c : List Label) :
    List (String × Arr (Option Label)) → Option (List Label)
  | [] => some []
  | (d, g) :: rest =>
    match g.val (pick dims c g.dims), lookLabels coords dims c rest with
    | some l, some ls => if (coords d).contains l then some (l :: ls) else none
    | _, _ => none

/-- Whether a lookup array holds no label of its dimension at all. -/
def noMatch (coords : String → List Label) (p : String × Arr (Option Label)) : Bool :=
  (cells coords p.2.dims).all (fun c => match p.2.val c with
    | some l => !(coords p.1).contains l
    | none => true)

/-- `SelectFromLookupArrays.as_array` (helper_functions.py:442-531). -/
def selectArr (coords : String → List Label) (a : Arr (Option V))
    (gs : List (String × Arr (Option Label))) : Res V :=
  let ds := gs.map Prod.fst
  if ds.all (a.dims.contains ·) then
    if gs.all (fun p => ds.all (p.2.dims.contains ·)) then
      if gs.all (fun p => p.2.dims.all (ds.contains ·)) then
        if gs.any (noMatch coords) then .error .indexError
        else
          let kept := a.dims.filter (fun d => !ds.contains d)
          .ok ⟨kept ++ ds, fun c =>
            match lookLabels coords (kept ++ ds) c gs with
            | some ls => a.val (pick (kept ++ ds) (c.take kept.length ++ ls) a.dims)
            | none => none⟩
      else .error .valueError
    else .error .backendError
  else .error .backendError

/-- The lookup arrays of a call. -/
def lookups (E : Env V) : List (String × String) → Except Err (List (String × Arr (Option Label)))
  | [] => .ok []
  | (d, n) :: rest => match E.lookup n with
    | none => .error .keyError
    | some g => match lookups E rest with
      | .error x => .error x
      | .ok gs => .ok ((d, g) :: gs)

/-- The value of a slice: labels (expression_parser.py:607-643, helper_functions.py:533-590). -/
def sliceArr (E : Env V) (slices : String → Option SliceDef) : Slicer → Except Err (Arr (Option Label))
  | .label l => .ok (scalar (some l))
  | .ref n => match slices n with
    | none => .error .keyError
    | some (.label l) => .ok (scalar (some l))
    | some (.valAt d i) => match pyIndex (E.coords d) i with
      | some l => .ok (scalar (some l))
      | none => .error .indexError
    | some (.lookup m shifts) => match E.lookup m with
      | some g => rollAll E.coords shifts g
      | none => .error .backendError

/-- `EvalSlicedComponent._eval` (expression_parser.py:564-574). -/
def sliceArrs (E : Env V) (slices : String → Option SliceDef) : List (String × Slicer) →
    Except Err (List (String × Arr (Option Label)))
  | [] => .ok []
  | (d, s) :: rest => match sliceArr E slices s with
    | .error x => .error x
    | .ok g => match sliceArrs E slices rest with
      | .error x => .error x
      | .ok gs => .ok ((d, g) :: gs)

/-- Whether a slice holds a label of its dimension everywhere. -/
def allMatch (coords : String → List Label) (p : String × Arr (Option Label)) : Bool :=
  (cells coords p.2.dims).all (fun c => match p.2.val c with
    | some l => (coords p.1).contains l
    | none => false)

/-- `evaluated.sel(**slices)` (expression_parser.py:594-596): arrays of labels are looked up point by point, and give
their dimensions to the result. -/
def selAll (E : Env V) (slices : String → Option SliceDef) (a : Arr (Option V)) (ss : List (String × Slicer)) :
    Res V :=
  match sliceArrs E slices ss with
  | .error x => .error x
  | .ok gs =>
    let ds := gs.map Prod.fst
    if ds.all (a.dims.contains ·) && decide ds.Nodup && gs.all (allMatch E.coords) then
      let dims := gs.foldl (fun k p => joinDims k p.2.dims) (a.dims.filter (fun d => !ds.contains d))
      .ok ⟨dims, fun c => match lookLabels E.coords dims c gs with
        | some ls => a.val (pick (ds ++ dims) (ls ++ c) a.dims)
        | none => none⟩
    else .error .keyError

/-- The where-array `xr.DataArray(True)`. -/
def trueArr : Arr Bool := scalar true

mutual
/-- `eval("array", ...)` of an arithmetic expression; `w` is the where-array, `sub` evaluates references to
sub-expressions (expression_parser.py:258-313,444-466,564-588,650-690,722). -/
def evalEx [Zero V] [Add V] (E : Env V) (slices : String → Option SliceDef)
    (sub : Arr Bool → String → Res V) (w : Arr Bool) : Ex V → Res V
  | .num v => .ok (scalar (some v))
  | .comp n => compArr E n
  | .sliced n ss => match compArr E n with
    | .error x => .error x
    | .ok a => selAll E slices a ss
  | .sub n => sub w n
  | .sign o t => match evalEx E slices sub w t with
    | .error x => .error x
    | .ok a => .ok (if o = .minus then map E.neg a else a)
  | .chain t r => match evalEx E slices sub w t with
    | .error x => .error x
    | .ok a => evalRest E slices sub w (maskArr w a) r
  | .sum t over => match evalEx E slices sub w t with
    | .error x => .error x
    | .ok a => .ok (sumArr E.coords over a)
  | .reduceCarrier t flow => match evalEx E slices sub w t with
    | .error x => .error x
    | .ok a => match E.carrier flow with
      | none => .error .keyError
      | some m => .ok (sumArr E.coords ["carriers"] (maskArr m a))
  | .cond t c => match evalEx E slices sub w t with
    | .error x => .error x
    | .ok a => match evalEx E slices sub w c with
      | .error x => .error x
      | .ok b => .ok (condArr E a b)
  | .roll t shifts => match evalEx E slices sub trueArr t with
    | .error x => .error x
    | .ok a => rollAll E.coords shifts a
  | .groupSum t groupby groupDim => match evalEx E slices sub trueArr t with
    | .error x => .error x
    | .ok a => match E.lookup groupby with
      | none => .error .keyError
      | some g => groupArr E.coords a g groupDim
  | .groupDatetime t over group => match evalEx E slices sub trueArr t with
    | .error x => .error x
    | .ok a => groupArr E.coords a ⟨[over], fun c => some (E.period group (c.headD ""))⟩ group
  | .sumNextN t over n => match evalEx E slices sub w t with
    | .error x => .error x
    | .ok a => nextArr E.coords over n a
  | .select t ls => match evalEx E slices sub w t with
    | .error x => .error x
    | .ok a => match lookups E ls with
      | .error x => .error x
      | .ok gs => selectArr E.coords a gs
/-- The loop of `EvalOperatorOperand.as_array` (expression_parser.py:263-267). -/
def evalRest [Zero V] [Add V] (E : Env V) (slices : String → Option SliceDef)
    (sub : Arr Bool → String → Res V) (w : Arr Bool) (acc : Arr (Option V)) : ExRest V → Res V
  | .one o t => match evalEx E slices sub w t with
    | .error x => .error x
    | .ok a => .ok (zip (E.op o) acc (maskArr w a))
  | .more o t r => match evalEx E slices sub w t with
    | .error x => .error x
    | .ok a => evalRest E slices sub w (zip (E.op o) acc (maskArr w a)) r
end

/-- `EvalSubExpressions.as_array` (expression_parser.py:674-684): sub-expressions hold no references to
sub-expressions (expression_parser.py:1224-1226). -/
def evalSub [Zero V] [Add V] (E : Env V) (slices : String → Option SliceDef)
    (subs : String → Option (Ex V)) (w : Arr Bool) (n : String) : Res V :=
  match subs n with
  | none => .error .keyError
  | some t => evalEx E slices (fun _ _ => .error .keyError) w t

/-- One side of an equation, given the sub-expressions and slices chosen for it. -/
def evalSide [Zero V] [Add V] (E : Env V) (slices : String → Option SliceDef)
    (subs : String → Option (Ex V)) (w : Arr Bool) (t : Ex V) : Res V :=
  evalEx E slices (evalSub E slices subs) w t

/-- `raise_error_on_where_expr_mismatch` (parsing.py:346-371). -/
def checkWhere (E : Env V) (w : Arr Bool) (a : Arr (Option V)) : Except Err Unit :=
  if a.dims.all (w.dims.contains ·) then
    if anyCell E.coords (zip (fun v m => v.isNone && m) a w) then .error .backendError else .ok ()
  else .error .backendError

/-- `evaluate_expression` of a global expression, objective, ... (parsing.py:316-344). -/
def evalExpression [Zero V] [Add V] (E : Env V) (slices : String → Option SliceDef)
    (subs : String → Option (Ex V)) (w : Arr Bool) (t : Ex V) : Res V :=
  match evalSide E slices subs w t with
  | .error x => .error x
  | .ok a => match checkWhere E w a with
    | .error x => .error x
    | .ok () => .ok a

/-- `EvalComparisonOp.as_array` (expression_parser.py:362-383) and the check after it (parsing.py:341-343): both
sides are given the dimensions of `where` and compared where it is true.  A cell of the result is the pair of
compared values; the comparison of a missing value is an object too, so the check for missing values passes. -/
def evalComparison [Zero V] [Add V] (E : Env V) (slices : String → Option SliceDef)
    (subs : String → Option (Ex V)) (w : Arr Bool) (l r : Ex V) :
    Except Err (Arr (Option (Option V × Option V))) :=
  match evalSide E slices subs w l with
  | .error x => .error x
  | .ok a => match evalSide E slices subs w r with
    | .error x => .error x
    | .ok b =>
      if a.dims.all (w.dims.contains ·) then
        if b.dims.all (w.dims.contains ·) then
          .ok ⟨w.dims, fun c => if w.val c then
            some (a.val (pick w.dims c a.dims), b.val (pick w.dims c b.dims)) else none⟩
        else .error .backendError
      else .error .backendError

end Expr
end Calliope
