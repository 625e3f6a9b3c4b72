import Verif.Model.Expr

/-!
# Model of expanding equations with their sub-expressions and slices

Source: `/repo/src/calliope/backend/parsing.py:64-175,448-515,560-712`.

`C` is the type of parsed `where` strings.  Simplifications: a name such as `system_balance:0` or
`flow_sum:1` is a pair of a prefix and a number (math names hold no `:`), so that
`expr.name.split(":")[0]` is its first component; the text of combined names is not modelled.
-/

namespace Calliope
namespace Expand

open Expr

variable {V C : Type}

/-- The expression of an equation: arithmetic, or two sides of a comparison. -/
inductive Body (V : Type) where
  | arith (t : Ex V)
  | cmp (lhs : Ex V) (op : String) (rhs : Ex V)

/-- One entry of a list of sub-expressions or slices: number in the list, condition, expression. -/
structure Case (C α : Type) where
  name : String
  idx : Nat
  wheres : List C
  expr : α

/-- `ParsedBackendEquation` (parsing.py:30-62). -/
structure Equation (V C : Type) where
  parts : List (String × Nat)
  wheres : List C
  body : Body V
  subs : List (String × Ex V)
  slices : List (String × SliceDef)

mutual
/-- `_find_items_in_expression` for sub-expressions (parsing.py:104-137): operator chains and helper
functions are searched, signs are not. -/
def subRefs : Ex V → List String
  | .sub n => [n]
  | .num _ | .comp _ | .sliced _ _ | .sign _ _ => []
  | .chain t r => subRefs t ++ subRefsRest r
  | .sum t _ | .reduceCarrier t _ | .roll t _ | .groupSum t _ _ | .groupDatetime t _ _
  | .sumNextN t _ _ | .select t _ => subRefs t
  | .cond t c => subRefs t ++ subRefs c
def subRefsRest : ExRest V → List String
  | .one _ t => subRefs t
  | .more _ t r => subRefs t ++ subRefsRest r
end

/-- The slice references of a sliced component. -/
def sliceNames (ss : List (String × Slicer)) : List String :=
  ss.filterMap (fun p => match p.2 with
    | .ref n => some n
    | .label _ => none)

mutual
/-- `_find_items_in_expression` for slices. -/
def sliceRefs : Ex V → List String
  | .sliced _ ss => sliceNames ss
  | .num _ | .comp _ | .sub _ | .sign _ _ => []
  | .chain t r => sliceRefs t ++ sliceRefsRest r
  | .sum t _ | .reduceCarrier t _ | .roll t _ | .groupSum t _ _ | .groupDatetime t _ _
  | .sumNextN t _ _ | .select t _ => sliceRefs t
  | .cond t c => sliceRefs t ++ sliceRefs c
def sliceRefsRest : ExRest V → List String
  | .one _ t => sliceRefs t
  | .more _ t r => sliceRefs t ++ sliceRefsRest r
end

/-- What is searched at the top of an expression: `self.expression[0].values`, so the operand of a sign at
the very start is searched (parsing.py:76-81,96-99). -/
def under : Ex V → Ex V
  | .sign _ t => t
  | t => t

/-- `find_sub_expressions` (parsing.py:64-83), as a list of occurrences. -/
def findSubs : Body V → List String
  | .arith t => subRefs (under t)
  | .cmp l _ r => subRefs l ++ subRefs r

/-- `find_slices` (parsing.py:85-102). -/
def findSlices (e : Equation V C) : List String :=
  (match e.body with
    | .arith t => sliceRefs (under t)
    | .cmp l _ r => sliceRefs l ++ sliceRefs r) ++
  e.subs.flatMap (fun p => sliceRefs p.2)

/-- `itertools.product(*ls)`. -/
def product {α : Type} : List (List α) → List (List α)
  | [] => [[]]
  | l :: ls => l.flatMap (fun a => (product ls).map (fun c => a :: c))

/-- `add_expression_group_combination` for sub-expressions (parsing.py:139-175). -/
def addSubs (e : Equation V C) (cs : List (Case C (Ex V))) : Equation V C :=
  { e with
    parts := e.parts ++ cs.map (fun c => (c.name, c.idx))
    wheres := e.wheres ++ cs.flatMap (fun c => c.wheres)
    subs := cs.map (fun c => (c.name, c.expr)) }

/-- `add_expression_group_combination` for slices. -/
def addSlices (e : Equation V C) (cs : List (Case C SliceDef)) : Equation V C :=
  { e with
    parts := e.parts ++ cs.map (fun c => (c.name, c.idx))
    wheres := e.wheres ++ cs.flatMap (fun c => c.wheres)
    slices := cs.map (fun c => (c.name, c.expr)) }

/-- The entries of each name; `none` if one is not defined. -/
def gather {α : Type} (defs : List (String × List (Case C α))) :
    List String → Option (List (List (Case C α)))
  | [] => some []
  | n :: ns => match defs.lookup n, gather defs ns with
    | some l, some ls => some (l :: ls)
    | _, _ => none

/-- `extend_equation_list_with_expression_group` (parsing.py:658-712).  `enum` is the order in which the
`set` of references is traversed. -/
def extend {α : Type} (enum : List String → List String) (refs : List String)
    (defs : List (String × List (Case C α))) (add : Equation V C → List (Case C α) → Equation V C)
    (e : Equation V C) : Except Err (List (Equation V C)) :=
  match enum refs with
  | [] => .ok [e]
  | n :: ns => match gather defs (n :: ns) with
    | none => .error .keyError
    | some ls => .ok ((product ls).map (add e))

/-- The loop over equations (parsing.py:499-514). -/
def extendAll (f : Equation V C → Except Err (List (Equation V C))) :
    List (Equation V C) → Except Err (List (Equation V C))
  | [] => .ok []
  | e :: es => match f e with
    | .error x => .error x
    | .ok l => match extendAll f es with
      | .error x => .error x
      | .ok ls => .ok (l ++ ls)

/-- `generate_expression_list` for equations (parsing.py:640-656). -/
def initial (name : String) (eqs : List (C × Body V)) : List (Equation V C) :=
  eqs.zipIdx.map (fun p => ⟨[(name, p.2)], [p.1.1], p.1.2, [], []⟩)

/-- `generate_expression_list` for the entries of a sub-expression or slice. -/
def cases {α : Type} (name : String) (l : List (C × α)) : List (Case C α) :=
  l.zipIdx.map (fun p => ⟨name, p.2, [p.1.1], p.1.2⟩)

/-- A math component as in the math definition. -/
structure Definition (V C : Type) where
  name : String
  equations : List (C × Body V)
  subs : List (String × List (C × Ex V))
  slices : List (String × List (C × SliceDef))

/-- `parse_equations` (parsing.py:448-515). -/
def parseEquations (enum : List String → List String) (d : Definition V C) :
    Except Err (List (Equation V C)) :=
  let sd := d.subs.map (fun p => (p.1, cases p.1 p.2))
  let ld := d.slices.map (fun p => (p.1, cases p.1 p.2))
  match extendAll (fun e => extend enum (findSubs e.body) sd addSubs e) (initial d.name d.equations) with
  | .error x => .error x
  | .ok es => extendAll (fun e => extend enum (findSlices e) ld addSlices e) es

end Expand
end Calliope
