import Verif.Model.Arith
import Verif.Model.Where

/-!
# Model of reading math strings, character by character

Source: `/repo/src/calliope/backend/expression_parser.py:850-1292`, `/repo/src/calliope/backend/parsing.py:560-585`.

`pyparsing` works on characters and skips blanks before each element, but not within `Combine`.  Here the characters are
first split into lexemes; each lexeme says whether it follows the one before it directly.  `MatchFirst` takes the first
alternative that matches and does not go back to try the others; so do the functions below.

Simplifications: splitting into lexemes first (no element of these grammars ends inside a lexeme, other than `=` in
`==`, after which nothing can match); letters and digits are those of ASCII; a number is digits, with a point and more
digits or not, or a point and digits, with an exponent or not.
-/

namespace Calliope
namespace Grammar

open Arith (Op isAdd isMul isPow)
open Where (CmpOp)

abbrev Str := List Char

/-! ### Lexemes -/

inductive Lx where
  | id (s : Str)
  | num (s : Str)
  | lpar | rpar | lsq | rsq | comma | dollar | dot
  /-- a single `=` -/
  | eq
  | op (o : Op)
  | cmp (o : CmpOp)
  deriving DecidableEq, Repr

/-- A lexeme, and whether there is no blank before it. -/
abbrev Tok := Bool × Lx

/-- `pyparsing`'s default blanks. -/
def isBlank (c : Char) : Bool := c = ' ' || c = '\n' || c = '\t' || c = '\r'

/-- `alphanums + "_"` (expression_parser.py:1074). -/
def isIdChar (c : Char) : Bool := c.isAlphanum || c = '_'

/-- The digits of an exponent after its letter, with a sign or not: the text and what follows; `none` if there are no
digits. -/
def exponentDigits : Str → Option (Str × Str)
  | [] => none
  | c :: r =>
    if c.isDigit then some ((c :: r).takeWhile Char.isDigit, (c :: r).dropWhile Char.isDigit)
    else if (c = '+' || c = '-') && (r.head?.map Char.isDigit).getD false then
      some (c :: r.takeWhile Char.isDigit, r.dropWhile Char.isDigit)
    else none

/-- An exponent, if there is one. -/
def exponent : Str → Str × Str
  | [] => ([], [])
  | c :: r =>
    if c = 'e' || c = 'E' then
      match exponentDigits r with
      | some (s, r') => (c :: s, r')
      | none => ([], c :: r)
    else ([], c :: r)

/-- A point with digits, if there is one. -/
def fraction : Str → Str × Str
  | [] => ([], [])
  | c :: r => if c = '.' then (c :: r.takeWhile Char.isDigit, r.dropWhile Char.isDigit) else ([], c :: r)

/-- `pyparsing_common.number` without sign, at a digit or at a point before a digit. -/
def number (s : Str) : Str × Str :=
  (s.takeWhile Char.isDigit ++ ((fraction (s.dropWhile Char.isDigit)).1 ++
    (exponent (fraction (s.dropWhile Char.isDigit)).2).1),
   (exponent (fraction (s.dropWhile Char.isDigit)).2).2)

/-- Symbols of one character. -/
def symbolOne : Char → Option Lx
  | '(' => some .lpar
  | ')' => some .rpar
  | '[' => some .lsq
  | ']' => some .rsq
  | ',' => some .comma
  | '$' => some .dollar
  | '+' => some (.op .plus)
  | '-' => some (.op .minus)
  | '*' => some (.op .times)
  | '/' => some (.op .div)
  | '<' => some (.cmp .lt)
  | '>' => some (.cmp .gt)
  | '=' => some .eq
  | _ => none

/-- Symbols of two characters. -/
def symbolTwo : Char → Char → Option Lx
  | '*', '*' => some (.op .pow)
  | '<', '=' => some (.cmp .le)
  | '>', '=' => some (.cmp .ge)
  | '=', '=' => some (.cmp .eq)
  | _, _ => none

/-- The symbol at the start. -/
def symbol (c : Char) (r : Str) : Option (Lx × Str) :=
  match (match r.head? with
    | some d => symbolTwo c d
    | none => none) with
  | some x => some (x, r.tail)
  | none => match symbolOne c with
    | some x => some (x, r)
    | none => none

/-- The lexeme at a character that is no blank, and what follows it. -/
def lexOne : Str → Option (Lx × Str)
  | [] => none
  | c :: r =>
    if c.isAlpha then some (.id ((c :: r).takeWhile isIdChar), (c :: r).dropWhile isIdChar)
    else if c.isDigit then some (.num (number (c :: r)).1, (number (c :: r)).2)
    else if c = '.' then
      if (r.head?.map Char.isDigit).getD false then some (.num (number (c :: r)).1, (number (c :: r)).2)
      else some (.dot, r)
    else symbol c r

/-- All lexemes; `none`: a character that begins none. -/
def lexAll : Nat → Bool → Str → Option (List Tok)
  | 0, _, _ => none
  | _ + 1, _, [] => some []
  | f + 1, g, c :: r =>
    if isBlank c then lexAll f false r
    else match lexOne (c :: r) with
      | none => none
      | some (x, r') => match lexAll f true r' with
        | none => none
        | some ts => some ((g, x) :: ts)

def lex (s : Str) : Option (List Tok) := lexAll (s.length + 1) false s

/-! ### What the parse actions build -/

/-- An element of a list, or a slice: a number, with a sign or not, a text, or a component. -/
inductive Item where
  | num (s : Str)
  | text (s : Str)
  | comp (s : Str)
  deriving DecidableEq, Repr

/-- What can stand after `=` in `component[dim=...]`. -/
inductive Slicer where
  | ref (s : Str)
  | item (i : Item)
  | list (l : List Item)
  deriving DecidableEq, Repr

mutual
/-- `EvalNumber`, `EvalUnslicedComponent`, `EvalSlicedComponent`, `EvalSubExpressions`, `ConfigOptionParser`,
`EvalSignOp`, `EvalOperatorOperand` and `EvalFunction`. -/
inductive Ast where
  | num (s : Str)
  | comp (s : Str)
  | sliced (s : Str) (l : List (Str × Slicer))
  | sub (s : Str)
  | config (s : Str)
  | sign (o : Op) (t : Ast)
  | chain (t : Ast) (r : ARest)
  | call (f : Str) (args : Args) (kws : Kws)
inductive ARest where
  | one (o : Op) (t : Ast)
  | more (o : Op) (t : Ast) (r : ARest)
/-- Arguments of helper functions. -/
inductive Arg where
  | ex (t : Ast)
  | list (l : List Item)
  | text (s : Str)
inductive Args where
  | nil
  | cons (a : Arg) (r : Args)
inductive Kws where
  | nil
  | cons (k : Str) (v : Arg) (r : Kws)
end

deriving instance DecidableEq for Ast, ARest, Arg, Args, Kws

/-- What distinguishes the grammars. -/
structure Gram where
  /-- `$name` is an operand -/
  subs : Bool
  /-- `name[dim=...]` is an operand -/
  slices : Bool
  /-- `$name` is a slice -/
  refs : Bool
  /-- `config.name` is an operand -/
  config : Bool
  /-- operators, signs and parentheses are used; if not, numbers may have a sign -/
  ops : Bool
  /-- function calls are operands -/
  nested : Bool
  /-- arguments of functions are tried as texts and numbers first, and not last -/
  textFirst : Bool
  /-- the names that are operands -/
  comp : Str → Bool
  /-- the names that are not texts -/
  known : Str → Bool
  /-- the names that may be in lists that are arguments -/
  listed : Str → Bool

/-- The levels of operators (expression_parser.py:1108-1117). -/
def Gram.bins (g : Gram) : List (Op → Bool) := if g.ops then [isAdd, isMul, isPow] else []

/-- `Keyword("inf", caseless=True)` (expression_parser.py:1072). -/
def isInf (s : Str) : Bool := s.map Char.toLower = ['i', 'n', 'f']

/-! ### Parsers without recursion -/

abbrev P (α : Type) := List Tok → Option (α × List Tok)

/-- What follows the lexeme `x`, with blanks before it or not. -/
def after (x : Lx) : List Tok → Option (List Tok)
  | [] => none
  | (_, y) :: r => if y = x then some r else none

/-- What follows the lexeme `x`, without blanks before it. -/
def glued (x : Lx) : List Tok → Option (List Tok)
  | [] => none
  | (b, y) :: r => if b && y = x then some r else none

/-- `number` without sign (expression_parser.py:1072-1073); `inf` has its point removed. -/
def pUnsigned : P Str
  | (_, .num s) :: r => some (s, r)
  | (_, .id s) :: r => if isInf s then some (['i', 'n', 'f'], r) else none
  | (_, .dot) :: (true, .id s) :: r => if isInf s then some (['i', 'n', 'f'], r) else none
  | _ => none

/-- `number` with its sign, which must be directly before it. -/
def pSigned : P Str
  | (_, .op .plus) :: (true, .num s) :: r => some ('+' :: s, r)
  | (_, .op .minus) :: (true, .num s) :: r => some ('-' :: s, r)
  | ts => pUnsigned ts

/-- An identifier of any kind. -/
def pId : P Str
  | (_, .id s) :: r => some (s, r)
  | _ => none

/-- `generic_identifier` (expression_parser.py:1074). -/
def pIdent (ts : List Tok) : Option (Str × List Tok) :=
  match pId ts with
  | some (s, r) => if isInf s then none else some (s, r)
  | none => none

/-- `evaluatable_identifier` (expression_parser.py:1037-1039). -/
def pText (g : Gram) (ts : List Tok) : Option (Str × List Tok) :=
  match pIdent ts with
  | some (s, r) => if g.known s then none else some (s, r)
  | none => none

/-- An element of a list: `number`, `evaluatable_identifier`, and a component in lists that are arguments
(expression_parser.py:1164-1165). -/
def pItem (g : Gram) (comps : Bool) (ts : List Tok) : Option (Item × List Tok) :=
  match pSigned ts with
  | some (s, r) => some (.num s, r)
  | none => match pText g ts with
    | some (s, r) => some (.text s, r)
    | none => match pId ts with
      | some (s, r) => if comps && g.listed s then some (.comp s, r) else none
      | none => none

/-- `DelimitedList(list_elements)` (expression_parser.py:1058); the count is the number of lexemes. -/
def pItems (g : Gram) (comps : Bool) : Nat → P (List Item)
  | 0, _ => none
  | f + 1, ts => match pItem g comps ts with
    | none => none
    | some (i, r) => match after .comma r with
      | none => some ([i], r)
      | some r' => match pItems g comps f r' with
        | some (is, r'') => some (i :: is, r'')
        | none => some ([i], r)

/-- `list_parser` (expression_parser.py:1044-1060). -/
def pList (g : Gram) (comps : Bool) (ts : List Tok) : Option (List Item × List Tok) :=
  match after .lsq ts with
  | none => none
  | some r => match pItems g comps r.length r with
    | none => none
    | some (is, r') => match after .rsq r' with
      | some r'' => some (is, r'')
      | none => none

/-- `slicer` (expression_parser.py:956-962). -/
def pSlicer (g : Gram) (ts : List Tok) : Option (Slicer × List Tok) :=
  match after .dollar ts with
  | some r => if g.refs then (match pIdent r with
      | some (s, r') => some (.ref s, r')
      | none => none) else none
  | none => match pItem g false ts with
    | some (i, r) => some (.item i, r)
    | none => match pList g false ts with
      | some (l, r) => some (.list l, r)
      | none => none

/-- `slice` (expression_parser.py:964). -/
def pSlice (g : Gram) (ts : List Tok) : Option ((Str × Slicer) × List Tok) :=
  match pIdent ts with
  | none => none
  | some (d, r) => match after .eq r with
    | none => none
    | some r' => match pSlicer g r' with
      | none => none
      | some (s, r'') => some ((d, s), r'')

/-- `DelimitedList(slice)` (expression_parser.py:966). -/
def pSlices (g : Gram) : Nat → P (List (Str × Slicer))
  | 0, _ => none
  | f + 1, ts => match pSlice g ts with
    | none => none
    | some (s, r) => match after .comma r with
      | none => some ([s], r)
      | some r' => match pSlices g f r' with
        | some (l, r'') => some (s :: l, r'')
        | none => some ([s], r)

/-- `sub_expression` (expression_parser.py:991-994). -/
def pSub (g : Gram) : P Ast
  | (_, .dollar) :: (true, .id s) :: r => if g.subs && !isInf s then some (.sub s, r) else none
  | _ => none

/-- `sliced_param_or_var` (expression_parser.py:967-970). -/
def pSliced (g : Gram) (ts : List Tok) : Option (Ast × List Tok) :=
  match pId ts with
  | none => none
  | some (s, r) =>
    if g.slices && g.comp s then
      match glued .lsq r with
      | none => none
      | some r' => match pSlices g r'.length r' with
        | none => none
        | some (l, r'') => match after .rsq r'' with
          | some q => some (.sliced s l, q)
          | none => none
    else none

/-- `number` as an operand. -/
def pNumber (g : Gram) (ts : List Tok) : Option (Ast × List Tok) :=
  match (if g.ops then pUnsigned ts else pSigned ts) with
  | some (s, r) => some (.num s, r)
  | none => none

/-- `unsliced_param_or_var` (expression_parser.py:1014). -/
def pComp (g : Gram) (ts : List Tok) : Option (Ast × List Tok) :=
  match pId ts with
  | some (s, r) => if g.comp s then some (.comp s, r) else none
  | none => none

/-- `config_option` (where_parser.py:399). -/
def pConfig (g : Gram) (ts : List Tok) : Option (Ast × List Tok) :=
  match pId ts with
  | none => none
  | some (s, r) =>
    if g.config && s = ['c', 'o', 'n', 'f', 'i', 'g'] then
      match glued .dot r with
      | none => none
      | some r' => match pIdent r' with
        | some (o, r'') => some (.config o, r'')
        | none => none
    else none

/-- The operands that are no function calls, in their order (expression_parser.py:1263-1270); in slices components come
before numbers, which makes a difference for a component called `inf` only. -/
def pSimple (g : Gram) (ts : List Tok) : Option (Ast × List Tok) :=
  match pSub g ts with
  | some x => some x
  | none => match pSliced g ts with
    | some x => some x
    | none => match pNumber g ts with
      | some x => some x
      | none => match pComp g ts with
        | some x => some x
        | none => pConfig g ts

/-- `NotAny("=")` (expression_parser.py:892). -/
def equalsNext : List Tok → Bool
  | (_, .eq) :: _ => true
  | (_, .cmp .eq) :: _ => true
  | _ => false

/-- An operator. -/
def pOp : P Op
  | (_, .op o) :: r => some (o, r)
  | _ => none

/-- `helper_function_name + lpar` (expression_parser.py:907). -/
def pName (ts : List Tok) : Option (Str × List Tok) :=
  match pIdent ts with
  | none => none
  | some (n, r) => match glued .lpar r with
    | none => none
    | some r' => some (n, r')

/-- `key` (expression_parser.py:899). -/
def pKey (ts : List Tok) : Option (Str × List Tok) :=
  match pIdent ts with
  | none => none
  | some (n, r) => match after .eq r with
    | none => none
    | some r' => some (n, r')

/-! ### Operators and function calls -/

mutual
/-- `arithmetic` at the levels `ls` (expression_parser.py:1108-1117).  `none`: no match, or more than `f` nested
calls. -/
def pLevel (g : Gram) : Nat → List (Op → Bool) → P Ast
  | 0, _, _ => none
  | f + 1, [], ts =>
    match (if g.ops then pOp ts else none) with
    | some (o, r) => if isAdd o then (match pLevel g f [] r with
        | some (t, r') => some (.sign o t, r')
        | none => none) else none
    | none => match pOperand g f ts with
      | some x => some x
      | none => match (if g.ops then after .lpar ts else none) with
        | none => none
        | some r => match pLevel g f g.bins r with
          | none => none
          | some (t, r') => match after .rpar r' with
            | some r'' => some (t, r'')
            | none => none
  | f + 1, b :: ls, ts =>
    match pLevel g f ls ts with
    | none => none
    | some (t, r) => match pRest g f b ls r with
      | none => some (t, r)
      | some (rs, r') => some (.chain t rs, r')
def pRest (g : Gram) : Nat → (Op → Bool) → List (Op → Bool) → P ARest
  | 0, _, _, _ => none
  | f + 1, b, ls, ts =>
    match pOp ts with
    | none => none
    | some (o, r) =>
      if b o then (match pLevel g f ls r with
        | none => none
        | some (t, r') => match pRest g f b ls r' with
          | none => some (.one o t, r')
          | some (rs, r'') => some (.more o t rs, r'')) else none
/-- `pp.MatchFirst(args)` (expression_parser.py:1110). -/
def pOperand (g : Gram) : Nat → P Ast
  | 0, _ => none
  | f + 1, ts => match (if g.nested then pCall g f ts else none) with
    | some x => some x
    | none => pSimple g ts
/-- `helper_function` (expression_parser.py:903-912). -/
def pCall (g : Gram) : Nat → P Ast
  | 0, _ => none
  | f + 1, ts => match pName ts with
    | none => none
    | some (n, r) => match pFunArgs g f r with
      | none => none
      | some ((as, ks), r') => match after .rpar r' with
        | some r'' => some (.call n as ks, r'')
        | none => none
/-- `helper_func_args` (expression_parser.py:903-905). -/
def pFunArgs (g : Gram) : Nat → P (Args × Kws)
  | 0, _ => none
  | f + 1, ts => match pArgs g f ts with
    | some (as, r) => match after .comma r with
      | some r' => match pKws g f r' with
        | some (ks, r'') => some ((as, ks), r'')
        | none => some ((as, .nil), r)
      | none => match pKws g f r with
        | some (ks, r') => some ((as, ks), r')
        | none => some ((as, .nil), r)
    | none => match pKws g f ts with
      | some (ks, r') => some ((.nil, ks), r')
      | none => some ((.nil, .nil), ts)
/-- `arg_values` before `NotAny` (expression_parser.py:892, where_parser.py:536-546). -/
def pAlt (g : Gram) : Nat → P Arg
  | 0, _ => none
  | f + 1, ts =>
    if g.textFirst then
      match pText g ts with
      | some (s, r) => some (.text s, r)
      | none => match pSigned ts with
        | some (s, r) => some (.ex (.num s), r)
        | none => match pList g true ts with
          | some (l, r) => some (.list l, r)
          | none => match pLevel g f g.bins ts with
            | some (t, r) => some (.ex t, r)
            | none => none
    else
      match pLevel g f g.bins ts with
      | some (t, r) => some (.ex t, r)
      | none => match pList g true ts with
        | some (l, r) => some (.list l, r)
        | none => match pText g ts with
          | some (s, r) => some (.text s, r)
          | none => none
/-- `arg_values` (expression_parser.py:892). -/
def pArg (g : Gram) : Nat → P Arg
  | 0, _ => none
  | f + 1, ts => match pAlt g f ts with
    | some (a, r) => if equalsNext r then none else some (a, r)
    | none => none
/-- `DelimitedList(arg_values)` (expression_parser.py:895). -/
def pArgs (g : Gram) : Nat → P Args
  | 0, _ => none
  | f + 1, ts => match pArg g f ts with
    | none => none
    | some (a, r) => match after .comma r with
      | none => some (.cons a .nil, r)
      | some r' => match pArgs g f r' with
        | some (as, r'') => some (.cons a as, r'')
        | none => some (.cons a .nil, r)
/-- `DelimitedList(dict_of(key, arg_values))` (expression_parser.py:899-900): `dict_of` itself takes one or more, without
commas between them. -/
def pKws (g : Gram) : Nat → P Kws
  | 0, _ => none
  | f + 1, ts => match pKey ts with
    | none => none
    | some (k, r) => match pArg g f r with
      | none => none
      | some (v, r') => match pKws g f r' with
        | some (ks, r'') => some (.cons k v ks, r'')
        | none => match after .comma r' with
          | none => some (.cons k v .nil, r')
          | some r'' => match pKws g f r'' with
            | some (ks, q) => some (.cons k v ks, q)
            | none => some (.cons k v .nil, r')
end

/-- Enough nested calls for an input of this length. -/
def fuelFor (n : Nat) : Nat := 12 * n + 12

/-! ### Reading strings -/

/-- `_parse_string` (parsing.py:560-585): the whole of the string. -/
def readAll {α : Type} (p : Nat → P α) (s : Str) : Option α :=
  match lex s with
  | none => none
  | some ts => match p (fuelFor ts.length) ts with
    | none => none
    | some (t, r) => if r = [] then some t else none

/-- The grammar of equations (expression_parser.py:1228-1272); `names` are the components. -/
def equationGram (names : Str → Bool) : Gram :=
  ⟨true, true, true, false, true, true, false, names, names, names⟩
/-- The grammar of sub-expressions (expression_parser.py:1191-1227). -/
def subGram (names : Str → Bool) : Gram := { equationGram names with subs := false }
/-- The grammar of slices (expression_parser.py:1142-1188). -/
def sliceGram (names : Str → Bool) : Gram :=
  { equationGram names with subs := false, refs := false, ops := false }

/-- `generate_arithmetic_parser` (expression_parser.py:1230-1272). -/
def readArithmetic (names : Str → Bool) (s : Str) : Option Ast :=
  readAll (fun f => pLevel (equationGram names) f (equationGram names).bins) s

/-- `generate_sub_expression_parser` (expression_parser.py:1191-1227). -/
def readSub (names : Str → Bool) (s : Str) : Option Ast :=
  readAll (fun f => pLevel (subGram names) f (subGram names).bins) s

/-- A comparison operator. -/
def pCmp : P CmpOp
  | (_, .cmp o) :: r => some (o, r)
  | _ => none

/-- `equation_comparison` (expression_parser.py:1136-1137). -/
def pEquation (g : Gram) (f : Nat) (ts : List Tok) : Option ((Ast × CmpOp × Ast) × List Tok) :=
  match pLevel g f g.bins ts with
  | none => none
  | some (l, r) => match pCmp r with
    | none => none
    | some (o, r') =>
      if o = .le || o = .ge || o = .eq then
        match pLevel g f g.bins r' with
        | some (t, r'') => some ((l, o, t), r'')
        | none => none
      else none

/-- `generate_equation_parser` (expression_parser.py:1275-1292). -/
def readEquation (names : Str → Bool) (s : Str) : Option (Ast × CmpOp × Ast) :=
  readAll (pEquation (equationGram names)) s

/-- What a string under `slices` can be: as an argument of a function. -/
def pSliceDef (g : Gram) (f : Nat) (ts : List Tok) : Option (Arg × List Tok) :=
  match pLevel g f g.bins ts with
  | some (t, r) => some (.ex t, r)
  | none => match pList g false ts with
    | some (l, r) => some (.list l, r)
    | none => match pText g ts with
      | some (s, r) => some (.text s, r)
      | none => none

/-- `generate_slice_parser` (expression_parser.py:1142-1188). -/
def readSlice (names : Str → Bool) (s : Str) : Option Arg := readAll (pSliceDef (sliceGram names)) s

/-! ### Names -/

/-- The dimensions, lookups, parameters, variables and global expressions of the math, and whether they are active. -/
abbrev Names := List (Str × Bool)

/-- The names with which strings are read when the math is made (model_math.py:108-121). -/
def validationNames (m : Names) (s : Str) : Bool := m.any (fun e => decide (e.1 = s))

/-- `parsing_components["expression"]` (math_schema.py:452-471): the names with which strings are read in the backend. -/
def buildNames (m : Names) (s : Str) : Bool := m.any (fun e => decide (e.1 = s) && e.2)

end Grammar
end Calliope
