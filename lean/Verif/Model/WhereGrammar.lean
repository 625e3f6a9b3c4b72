import Verif.Model.Grammar

/-!
# Model of reading `where` strings, character by character

Source: `/repo/src/calliope/backend/where_parser.py:367-580`, `/repo/src/calliope/backend/parsing.py:587-606`,
`/repo/src/calliope/schemas/math_schema.py:444-473`.

As `Model/Grammar.lean`, whose lexemes, functions and arithmetic are used.

Simplifications, besides those of `Model/Grammar.lean`: what begins with the word `not` is a negation, so that there is
no component and no helper function of that name; every blank counts as the space before and after `in`.
-/

namespace Calliope
namespace Grammar

open Arith (Op)
open Where (CmpOp)

/-- The names given to the grammar (where_parser.py:502-507). -/
structure WNames where
  dims : Str → Bool
  inputs : Str → Bool
  results : Str → Bool
  post : Str → Bool
  /-- there are names of postprocessed expressions -/
  hasPost : Bool

/-- `set().union(dimensions, inputs, results, postprocessed)` (where_parser.py:526-528). -/
def WNames.all (n : WNames) (s : Str) : Bool := n.dims s || n.inputs s || n.results s || n.post s

/-- The left-hand sides of comparisons, and the functions in comparisons (where_parser.py:537-556): results for
postprocessed expressions only. -/
def WNames.lhs (n : WNames) : Gram :=
  ⟨false, false, false, true, true, true, true,
    fun s => n.dims s || n.inputs s || (n.hasPost && (n.results s || n.post s)), n.all, n.dims⟩

/-- The functions that are conditions (where_parser.py:568-577): their arguments are no arithmetic. -/
def WNames.fn (n : WNames) : Gram := ⟨false, false, false, true, false, false, true, n.all, n.all, n.dims⟩

/-! ### What the parse actions build -/

/-- Items of a subset. -/
inductive SetItem where
  | config (s : Str)
  | num (s : Str)
  | text (s : Str)
  deriving DecidableEq, Repr

/-- Right-hand sides of comparisons. -/
inductive CRhs where
  | call (f : Str) (as : Args) (ks : Kws)
  | bool (b : Bool)
  | num (s : Str)
  | text (s : Str)
  deriving DecidableEq

/-- Operands of conditions: `BoolOperandParser`, `ComparisonParser`, `EvalFunction`, `SubsetParser`, `InputArrayParser`
or `ResultArrayParser`. -/
inductive WLeaf where
  | bool (b : Bool)
  | cmp (l : Ast) (o : CmpOp) (r : CRhs)
  | call (f : Str) (as : Args) (ks : Kws)
  | isIn (l : List SetItem) (d : Str)
  | input (s : Str)
  | result (s : Str)
  deriving DecidableEq

/-! ### Operands -/

/-- `pp.Keyword(w, caseless=True)`. -/
def isWord (w s : Str) : Bool := s.map Char.toLower = w

def wTrue : Str := ['t', 'r', 'u', 'e']
def wFalse : Str := ['f', 'a', 'l', 's', 'e']
def wNot : Str := ['n', 'o', 't']
def wAnd : Str := ['a', 'n', 'd']
def wOr : Str := ['o', 'r']
def wIn : Str := ['i', 'n']
def wConfig : Str := ['c', 'o', 'n', 'f', 'i', 'g']

/-- `bool_parser` (where_parser.py:405-412). -/
def pBool : P Bool
  | (_, .id s) :: r => if isWord wTrue s then some (true, r) else if isWord wFalse s then some (false, r) else none
  | _ => none

/-- A function call (expression_parser.py:903-912). -/
def pFn (g : Gram) (f : Nat) (ts : List Tok) : Option ((Str × Args × Kws) × List Tok) :=
  match pName ts with
  | none => none
  | some (n, r) => match pFunArgs g f r with
    | none => none
    | some ((as, ks), r') => match after .rpar r' with
      | some r'' => some ((n, as, ks), r'')
      | none => none

/-- The right-hand side of a comparison (where_parser.py:560-565). -/
def pRhs (n : WNames) (f : Nat) (ts : List Tok) : Option (CRhs × List Tok) :=
  match pFn n.lhs f ts with
  | some ((g, as, ks), r) => some (.call g as ks, r)
  | none => match pBool ts with
    | some (b, r) => some (.bool b, r)
    | none => match pSigned ts with
      | some (s, r) => some (.num s, r)
      | none => match pIdent ts with
        | some (s, r) => some (.text s, r)
        | none => none

/-- `comparison_parser` (where_parser.py:427-448). -/
def pCompare (n : WNames) (f : Nat) (ts : List Tok) : Option (WLeaf × List Tok) :=
  match pLevel n.lhs f n.lhs.bins ts with
  | none => none
  | some (l, r) => match pCmp r with
    | none => none
    | some (o, r') => match pRhs n f r' with
      | none => none
      | some (c, r'') => some (.cmp l o c, r'')

/-- `config_option` (where_parser.py:386-402). -/
def pConfigItem : P Str
  | (_, .id s) :: (true, .dot) :: r => if s = wConfig then pIdent r else none
  | _ => none

/-- An item of a subset (where_parser.py:533-535). -/
def pSetItem (ts : List Tok) : Option (SetItem × List Tok) :=
  match pConfigItem ts with
  | some (s, r) => some (.config s, r)
  | none => match pSigned ts with
    | some (s, r) => some (.num s, r)
    | none => match pIdent ts with
      | some (s, r) => some (.text s, r)
      | none => none

/-- `pp.delimited_list` (where_parser.py:463). -/
def pSetItems : Nat → P (List SetItem)
  | 0, _ => none
  | f + 1, ts => match pSetItem ts with
    | none => none
    | some (i, r) => match after .comma r with
      | none => some ([i], r)
      | some r' => match pSetItems f r' with
        | some (is, r'') => some (i :: is, r'')
        | none => some ([i], r)

/-- ` in dim` (where_parser.py:468-471). -/
def pIn (n : WNames) : P Str
  | (false, .id s) :: (false, .id d) :: r => if s = wIn && n.dims d then some (d, r) else none
  | _ => none

/-- `subset_parser` (where_parser.py:451-475). -/
def pSubset (n : WNames) (ts : List Tok) : Option (WLeaf × List Tok) :=
  match after .lsq ts with
  | none => none
  | some r => match pSetItems r.length r with
    | none => none
    | some (is, r') => match after .rsq r' with
      | none => none
      | some r'' => match pIn n r'' with
        | some (d, q) => some (.isIn is d, q)
        | none => none

/-- `inputs_parser` or `results_parser` (where_parser.py:522-523). -/
def pArray (n : WNames) (ts : List Tok) : Option (WLeaf × List Tok) :=
  match pId ts with
  | some (s, r) =>
    if n.inputs s then some (.input s, r) else if n.results s || n.post s then some (.result s, r) else none
  | none => none

/-- The operands, in their order (where_parser.py:578-580). -/
def pLeaf (n : WNames) (f : Nat) (ts : List Tok) : Option (WLeaf × List Tok) :=
  match pBool ts with
  | some (b, r) => some (.bool b, r)
  | none => match pCompare n f ts with
    | some x => some x
    | none => match pFn n.fn f ts with
      | some ((g, as, ks), r) => some (.call g as ks, r)
      | none => match pSubset n ts with
        | some x => some x
        | none => pArray n ts

deriving instance DecidableEq for Infix.Tree, Infix.Rest

/-! ### Operators -/

/-- What follows the word `not`. -/
def pNotWord : List Tok → Option (List Tok)
  | (_, .id s) :: r => if isWord wNot s then some r else none
  | _ => none

/-- `andorop` (where_parser.py:489). -/
def pAndOr : P Where.Op
  | (_, .id s) :: r => if isWord wAnd s then some (.and, r) else if isWord wOr s then some (.or, r) else none
  | _ => none

mutual
/-- The level of `not` (where_parser.py:494): operands and parentheses below it.  `none`: no match, or more than `f`
nested calls. -/
def pNot (n : WNames) : Nat → P (Infix.Tree Where.Op WLeaf)
  | 0, _ => none
  | f + 1, ts => match pNotWord ts with
    | some r => (match pNot n f r with
      | some (t, r') => some (.pre .not t, r')
      | none => none)
    | none => match pLeaf n f ts with
      | some (l, r) => some (.atom l, r)
      | none => match after .lpar ts with
        | none => none
        | some r => match pCond n f r with
          | none => none
          | some (t, r') => match after .rpar r' with
            | some r'' => some (t, r'')
            | none => none
/-- The level of `and` and `or` (where_parser.py:495). -/
def pCond (n : WNames) : Nat → P (Infix.Tree Where.Op WLeaf)
  | 0, _ => none
  | f + 1, ts => match pNot n f ts with
    | none => none
    | some (t, r) => match pConds n f r with
      | none => some (t, r)
      | some (rs, r') => some (.chain t rs, r')
def pConds (n : WNames) : Nat → P (Infix.Rest Where.Op WLeaf)
  | 0, _ => none
  | f + 1, ts => match pAndOr ts with
    | none => none
    | some (o, r) => match pNot n f r with
      | none => none
      | some (t, r') => match pConds n f r' with
        | none => some (.one o t, r')
        | some (rs, r'') => some (.more o t rs, r'')
end

/-- `parse_where_string` (parsing.py:587-606). -/
def readWhere (n : WNames) (s : Str) : Option (Infix.Tree Where.Op WLeaf) := readAll (pCond n) s

/-! ### Names -/

/-- What a name in the math stands for. -/
inductive Sort' where
  | dim | input | result
  deriving DecidableEq, Repr

/-- The names in the math: what they stand for, and whether they are active. -/
abbrev WMath := List (Str × Sort' × Bool)

/-- The names of a sort. -/
def WMath.has (m : WMath) (k : Sort') (s : Str) : Bool := m.any (fun e => decide (e.1 = s) && decide (e.2.1 = k))

/-- The active names of a sort. -/
def WMath.active (m : WMath) (k : Sort') (s : Str) : Bool :=
  m.any (fun e => decide (e.1 = s) && decide (e.2.1 = k) && e.2.2)

/-- The names with which `where` strings are read when the math is made (model_math.py:108-121). -/
def validationWhere (m : WMath) : WNames := ⟨m.has .dim, m.has .input, m.has .result, fun _ => false, false⟩

/-- `where_names[component] |= all_names - all_active` (math_schema.py:466-471). -/
def WMath.extended (m : WMath) (k : Sort') (s : Str) : Bool :=
  m.active k s || (m.has k s && !(m.active .input s || m.active .result s))

/-- `parsing_components["where"]` (math_schema.py:444-473): the names with which `where` strings are read in the
backend. -/
def buildWhere (m : WMath) : WNames :=
  ⟨m.active .dim, m.extended .input, m.extended .result, fun _ => false, false⟩

end Grammar
end Calliope
