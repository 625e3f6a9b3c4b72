import Verif.Model.Grammar

/-!
# Specification: what math strings say

`Written`: which characters a list of lexemes is written with.  `Spells`: which lexemes an expression is written with.
The rules have no order and do not say how to read.
-/

namespace Calliope
namespace Grammar

open Arith (Op isAdd isMul isPow)
open Where (CmpOp)

/-! ### Lexemes in characters -/

def Digits (s : Str) : Prop := ∀ c ∈ s, c.isDigit = true

/-- A point and digits, or nothing. -/
def FractionText (s : Str) : Prop := s = [] ∨ ∃ es, s = '.' :: es ∧ Digits es

/-- `e` or `E`, a sign or none, and digits, or nothing. -/
def ExponentText (s : Str) : Prop :=
  s = [] ∨ ∃ c sign es, s = c :: (sign ++ es) ∧ (c = 'e' ∨ c = 'E') ∧
    (sign = [] ∨ sign = ['+'] ∨ sign = ['-']) ∧ Digits es ∧ es ≠ []

/-- A number without sign: a digit at least before or after the point. -/
def NumberText (s : Str) : Prop :=
  ∃ ds fr ex, s = ds ++ (fr ++ ex) ∧ Digits ds ∧ FractionText fr ∧ ExponentText ex ∧
    (ds = [] → 2 ≤ fr.length)

/-- A letter, and letters, digits and underscores. -/
def IdText (s : Str) : Prop := ∃ c r, s = c :: r ∧ c.isAlpha = true ∧ ∀ d ∈ r, d.isAlphanum = true ∨ d = '_'

/-- The characters of a lexeme. -/
def Lexeme : Lx → Str → Prop
  | .id s, u => u = s ∧ IdText s
  | .num s, u => u = s ∧ NumberText s
  | .lpar, u => u = ['(']
  | .rpar, u => u = [')']
  | .lsq, u => u = ['[']
  | .rsq, u => u = [']']
  | .comma, u => u = [',']
  | .dollar, u => u = ['$']
  | .dot, u => u = ['.']
  | .eq, u => u = ['=']
  | .op .plus, u => u = ['+']
  | .op .minus, u => u = ['-']
  | .op .times, u => u = ['*']
  | .op .div, u => u = ['/']
  | .op .pow, u => u = ['*', '*']
  | .cmp .lt, u => u = ['<']
  | .cmp .gt, u => u = ['>']
  | .cmp .eq, u => u = ['=', '=']
  | .cmp .ge, u => u = ['>', '=']
  | .cmp .le, u => u = ['<', '=']

/-- No lexeme that is longer than `u` starts `s`. -/
def Longest (u s : Str) : Prop := ∀ x v, Lexeme x v → v <+: s → v.length ≤ u.length

/-- `s` is written with the lexemes `ts`, and blanks; `g`: what precedes it is a lexeme. -/
inductive Written : Bool → Str → List Tok → Prop
  | done (g : Bool) : Written g [] []
  | blank {g : Bool} {c : Char} {s : Str} {ts : List Tok} : c ∈ [' ', '\n', '\t', '\r'] → Written false s ts →
      Written g (c :: s) ts
  | lexeme {g : Bool} {x : Lx} {u r : Str} {ts : List Tok} : Lexeme x u → Longest u (u ++ r) → Written true r ts →
      Written g (u ++ r) ((g, x) :: ts)

/-! ### Expressions in lexemes -/

/-- `inf`, in capitals or not. -/
def Inf (s : Str) : Prop := s.map Char.toLower = ['i', 'n', 'f']

/-- Numbers: `inf` may have a point before it. -/
inductive Unsigned : Str → List Tok → Prop
  | num (b : Bool) (s : Str) : Unsigned s [(b, .num s)]
  | inf (b : Bool) {s : Str} : Inf s → Unsigned ['i', 'n', 'f'] [(b, .id s)]
  | dotInf (b : Bool) {s : Str} : Inf s → Unsigned ['i', 'n', 'f'] [(b, .dot), (true, .id s)]

/-- Numbers that may have a sign directly before them. -/
inductive Signed : Str → List Tok → Prop
  | plain {s : Str} {ts : List Tok} : Unsigned s ts → Signed s ts
  | plus (b : Bool) (s : Str) : Signed ('+' :: s) [(b, .op .plus), (true, .num s)]
  | minus (b : Bool) (s : Str) : Signed ('-' :: s) [(b, .op .minus), (true, .num s)]

/-- Elements of lists. -/
inductive SItem (g : Gram) : Bool → Item → List Tok → Prop
  | num {c : Bool} {s : Str} {ts : List Tok} : Signed s ts → SItem g c (.num s) ts
  | text {c b : Bool} {s : Str} : ¬ Inf s → g.known s = false → SItem g c (.text s) [(b, .id s)]
  | comp {b : Bool} {s : Str} : ¬ Inf s → g.known s = true → g.listed s = true → SItem g true (.comp s) [(b, .id s)]

/-- Elements with commas between them. -/
inductive SItems (g : Gram) : Bool → List Item → List Tok → Prop
  | one {c : Bool} {i : Item} {ts : List Tok} : SItem g c i ts → SItems g c [i] ts
  | more {c b : Bool} {i : Item} {is : List Item} {ts us : List Tok} : SItem g c i ts → SItems g c is us →
      SItems g c (i :: is) (ts ++ (b, .comma) :: us)

/-- Lists, in brackets. -/
inductive SList (g : Gram) : Bool → List Item → List Tok → Prop
  | list {c b b' : Bool} {is : List Item} {ts : List Tok} : SItems g c is ts →
      SList g c is ((b, .lsq) :: (ts ++ [(b', .rsq)]))

/-- `$name`, a number, a text or a list. -/
inductive SSlicer (g : Gram) : Slicer → List Tok → Prop
  | ref {b b' : Bool} {s : Str} : g.refs = true → ¬ Inf s → SSlicer g (.ref s) [(b, .dollar), (b', .id s)]
  | item {i : Item} {ts : List Tok} : SItem g false i ts → SSlicer g (.item i) ts
  | list {l : List Item} {ts : List Tok} : SList g false l ts → SSlicer g (.list l) ts

/-- `dim=slicer`, with commas between them. -/
inductive SSlices (g : Gram) : List (Str × Slicer) → List Tok → Prop
  | one {b b' : Bool} {d : Str} {s : Slicer} {ts : List Tok} : ¬ Inf d → SSlicer g s ts →
      SSlices g [(d, s)] ((b, .id d) :: (b', .eq) :: ts)
  | more {b b' b'' : Bool} {d : Str} {s : Slicer} {l : List (Str × Slicer)} {ts us : List Tok} : ¬ Inf d →
      SSlicer g s ts → SSlices g l us →
      SSlices g ((d, s) :: l) ((b, .id d) :: (b', .eq) :: (ts ++ (b'', .comma) :: us))

/-- Operands without functions and operators. -/
inductive SSimple (g : Gram) : Ast → List Tok → Prop
  | number {s : Str} {ts : List Tok} : (if g.ops then Unsigned s ts else Signed s ts) → SSimple g (.num s) ts
  | comp {b : Bool} {s : Str} : g.comp s = true → ¬ Inf s → SSimple g (.comp s) [(b, .id s)]
  | sub {b : Bool} {s : Str} : g.subs = true → ¬ Inf s → SSimple g (.sub s) [(b, .dollar), (true, .id s)]
  | sliced {b b' : Bool} {s : Str} {l : List (Str × Slicer)} {ts : List Tok} : g.slices = true → g.comp s = true →
      SSlices g l ts → SSimple g (.sliced s l) ((b, .id s) :: (true, .lsq) :: (ts ++ [(b', .rsq)]))
  | config {b b' : Bool} {s : Str} : g.config = true → g.comp ['c', 'o', 'n', 'f', 'i', 'g'] = false → ¬ Inf s →
      SSimple g (.config s) [(b, .id ['c', 'o', 'n', 'f', 'i', 'g']), (true, .dot), (b', .id s)]

/-- A comma, or nothing. -/
def Sep (ts : List Tok) : Prop := ts = [] ∨ ∃ b, ts = [(b, .comma)]

/-- It starts with what is read as a text or a number when these come first. -/
def Captured (g : Gram) (ts : List Tok) : Prop :=
  (∃ b s us, ts = (b, .id s) :: us ∧ ¬ Inf s ∧ g.known s = false) ∨ ∃ s us vs, Signed s us ∧ ts = us ++ vs

mutual
/-- `Spells g ls t ts`: `ts` is a way to write `t` where the operators of the levels `ls` may be used without
parentheses. -/
inductive Spells (g : Gram) : List (Op → Bool) → Ast → List Tok → Prop
  | simple {t : Ast} {ts : List Tok} : SSimple g t ts → Spells g [] t ts
  | call {b b' : Bool} {n : Str} {as : Args} {ks : Kws} {ts : List Tok} : g.nested = true → ¬ Inf n →
      SFun g as ks ts → Spells g [] (.call n as ks) ((b, .id n) :: (true, .lpar) :: (ts ++ [(b', .rpar)]))
  | sign {b : Bool} {o : Op} {t : Ast} {ts : List Tok} : g.ops = true → o = .plus ∨ o = .minus → Spells g [] t ts →
      Spells g [] (.sign o t) ((b, .op o) :: ts)
  | paren {b b' : Bool} {t : Ast} {ts : List Tok} : g.ops = true → Spells g g.bins t ts →
      Spells g [] t ((b, .lpar) :: (ts ++ [(b', .rpar)]))
  | lift {l : Op → Bool} {ls : List (Op → Bool)} {t : Ast} {ts : List Tok} : Spells g ls t ts → Spells g (l :: ls) t ts
  | chain {l : Op → Bool} {ls : List (Op → Bool)} {t : Ast} {r : ARest} {ts rs : List Tok} : Spells g ls t ts →
      SpellsRest g l ls r rs → Spells g (l :: ls) (.chain t r) (ts ++ rs)
/-- Operators of a level and operands of the tighter levels, alternating. -/
inductive SpellsRest (g : Gram) : (Op → Bool) → List (Op → Bool) → ARest → List Tok → Prop
  | one {l : Op → Bool} {ls : List (Op → Bool)} {b : Bool} {o : Op} {t : Ast} {ts : List Tok} : l o = true →
      Spells g ls t ts → SpellsRest g l ls (.one o t) ((b, .op o) :: ts)
  | more {l : Op → Bool} {ls : List (Op → Bool)} {b : Bool} {o : Op} {t : Ast} {r : ARest} {ts rs : List Tok} :
      l o = true → Spells g ls t ts → SpellsRest g l ls r rs →
      SpellsRest g l ls (.more o t r) ((b, .op o) :: (ts ++ rs))
/-- What is in the parentheses of a function: arguments, then keyword arguments, with a comma between them or not. -/
inductive SFun (g : Gram) : Args → Kws → List Tok → Prop
  | none : SFun g .nil .nil []
  | args {as : Args} {ts : List Tok} : SArgs g as ts → SFun g as .nil ts
  | kws {ks : Kws} {ts : List Tok} : SKws g ks ts → SFun g .nil ks ts
  | both {as : Args} {ks : Kws} {ts us c : List Tok} : SArgs g as ts → Sep c → SKws g ks us →
      SFun g as ks (ts ++ (c ++ us))
/-- An argument. -/
inductive SArg (g : Gram) : Arg → List Tok → Prop
  | ex {t : Ast} {ts : List Tok} : (g.textFirst = true → ¬ Captured g ts) → Spells g g.bins t ts → SArg g (.ex t) ts
  | num {s : Str} {ts : List Tok} : g.textFirst = true → Signed s ts → SArg g (.ex (.num s)) ts
  | list {l : List Item} {ts : List Tok} : SList g true l ts → SArg g (.list l) ts
  | text {b : Bool} {s : Str} : ¬ Inf s → g.known s = false → (g.textFirst = false → g.comp s = false) →
      SArg g (.text s) [(b, .id s)]
/-- Arguments, with commas between them. -/
inductive SArgs (g : Gram) : Args → List Tok → Prop
  | last {a : Arg} {ts : List Tok} : SArg g a ts → SArgs g (.cons a .nil) ts
  | next {a : Arg} {as : Args} {b : Bool} {ts us : List Tok} : SArg g a ts → SArgs g as us →
      SArgs g (.cons a as) (ts ++ (b, .comma) :: us)
/-- Keyword arguments, with commas between them or not. -/
inductive SKws (g : Gram) : Kws → List Tok → Prop
  | lastKey {b b' : Bool} {k : Str} {v : Arg} {ts : List Tok} : ¬ Inf k → SArg g v ts →
      SKws g (.cons k v .nil) ((b, .id k) :: (b', .eq) :: ts)
  | nextKey {b b' : Bool} {k : Str} {v : Arg} {ks : Kws} {ts us c : List Tok} : ¬ Inf k → SArg g v ts → Sep c →
      SKws g ks us → SKws g (.cons k v ks) ((b, .id k) :: (b', .eq) :: (ts ++ (c ++ us)))
end

/-- What may be written in equations: operators, functions, `$name`, `name[dim=...]` and the names of components. -/
def inEquations (names : Str → Bool) : Gram where
  subs := true
  slices := true
  refs := true
  config := false
  ops := true
  nested := true
  textFirst := false
  comp := names
  known := names
  listed := names

/-- What may be written in sub-expressions: the same without `$name` as an operand. -/
def inSubs (names : Str → Bool) : Gram where
  subs := false
  slices := true
  refs := true
  config := false
  ops := true
  nested := true
  textFirst := false
  comp := names
  known := names
  listed := names

/-- What may be written in slices: no operators and no `$name`. -/
def inSlices (names : Str → Bool) : Gram where
  subs := false
  slices := true
  refs := false
  config := false
  ops := false
  nested := true
  textFirst := false
  comp := names
  known := names
  listed := names

/-- An expression, an operator of comparison and an expression. -/
inductive SEquation (g : Gram) : Ast → CmpOp → Ast → List Tok → Prop
  | eqn {b : Bool} {l r : Ast} {o : CmpOp} {ts us : List Tok} : o = .le ∨ o = .ge ∨ o = .eq →
      Spells g g.bins l ts → Spells g g.bins r us → SEquation g l o r (ts ++ (b, .cmp o) :: us)

/-- A definition of a slice. -/
inductive SSliceDef (g : Gram) : Arg → List Tok → Prop
  | ex {t : Ast} {ts : List Tok} : Spells g g.bins t ts → SSliceDef g (.ex t) ts
  | list {l : List Item} {ts : List Tok} : SList g false l ts → SSliceDef g (.list l) ts
  | text {b : Bool} {s : Str} : ¬ Inf s → g.known s = false → g.comp s = false →
      SSliceDef g (.text s) [(b, .id s)]

/-- The identifiers in a list of lexemes. -/
def idsOf : List Tok → List Str
  | [] => []
  | (_, .id s) :: r => s :: idsOf r
  | _ :: r => idsOf r

end Grammar
end Calliope
