import Verif.Model.Infix

/-!
# Model of arithmetic strings and of the LaTeX text of expressions

Source: `/repo/src/calliope/backend/expression_parser.py:154-313,646-722,1081-1119`.

Operands (numbers, components, helper functions) are opaque; their LaTeX text is one token.  LaTeX
groups are modelled by parentheses: `x^{y}` is `x ** ( y )` and `\frac{ x }{ y }` is `( ( x ) / ( y ) )`.
-/

namespace Calliope
namespace Arith

open Infix

/-- Operators of arithmetic strings. -/
inductive Op where
  | plus | minus | times | div | pow
  deriving DecidableEq, Repr

/-- `signop` (expression_parser.py:1102). -/
def isAdd (o : Op) : Bool := decide (o = .plus) || decide (o = .minus)
/-- `multop` (expression_parser.py:1103). -/
def isMul (o : Op) : Bool := decide (o = .times) || decide (o = .div)
/-- `expop` (expression_parser.py:1104). -/
def isPow (o : Op) : Bool := decide (o = .pow)

/-- `arithmetic_parser` (expression_parser.py:1108-1117), loosest level first. -/
def levels : Levels Op where
  prefixOp := isAdd
  bins := [isAdd, isMul, isPow]

/-! ### LaTeX -/

/-- What an operand is printed as: the text `0`, or something else. -/
inductive Atom where
  | zero
  | sym (s : String)
  deriving DecidableEq, Repr

abbrev Text := List (Tok Op Atom)

/-- `_skip_component_on_conditional` (expression_parser.py:215-220). -/
def skip (e : Text) (o : Op) : Bool := decide (e = [.atom .zero]) && isAdd o

/-- `"(" + val + ")"`. -/
def paren (b : Bool) (e : Text) : Text := if b then .lpar :: (e ++ [.rpar]) else e

/-- `LATEX_OPERATOR_LOOKUP` (expression_parser.py:157-163). -/
def fmt (o : Op) (v e : Text) : Text :=
  match o with
  | .pow => v ++ (.op .pow :: paren true e)
  | .div => paren true (paren true v ++ (.op .div :: paren true e))
  | o => v ++ (.op o :: e)

/-- `isinstance(x, type(self))` for `self` a chain of operators. -/
def isChain {α : Type} : Tree Op α → Bool
  | .chain _ _ => true
  | _ => false

/-- One turn of the loop of `EvalOperatorOperand.as_math_string` (expression_parser.py:243-257): `first` says
that the first operand is itself a chain, `nested` that this operand is. -/
def printStep (first nested : Bool) (v : Text) (o : Op) (e : Text) : Text :=
  if skip e o then v
  else if skip (paren first v) o then paren nested e
  else fmt o (paren first v) (paren nested e)

mutual
/-- `as_math_string` (expression_parser.py:240-258,305-306); `lt` is the text of operands. -/
def printTree {α : Type} (lt : α → Text) : Tree Op α → Text
  | .atom a => lt a
  | .pre o t => .op o :: printTree lt t
  | .chain t r => printRest lt (isChain t) (printTree lt t) r
def printRest {α : Type} (lt : α → Text) (first : Bool) (v : Text) : Rest Op α → Text
  | .one o t => printStep first (isChain t) v o (printTree lt t)
  | .more o t r => printRest lt first (printStep first (isChain t) v o (printTree lt t)) r
end

/-- Operands of an equation: a component, number or helper function, or a reference to a sub-expression. -/
inductive Leaf where
  | atom (a : Atom)
  | sub (name : String)
  deriving DecidableEq, Repr

/-- The text of an operand: that of a sub-expression is the text of its definition, as it is
(expression_parser.py:674-681). -/
def leafText (subs : String → Tree Op Atom) : Leaf → Text
  | .atom a => [.atom a]
  | .sub n => printTree (fun a => [.atom a]) (subs n)

/-- The LaTeX text of one side of an equation. -/
def latex (subs : String → Tree Op Atom) (t : Tree Op Leaf) : Text := printTree (leafText subs) t

/-! ### Values -/

/-- Arithmetic of some type of values. -/
structure Alg (V : Type) where
  zero : V
  neg : V → V
  op : Op → V → V → V

/-- The sign operator (expression_parser.py:308-312). -/
def Alg.sign {V : Type} (A : Alg V) (o : Op) (v : V) : V := if o = .minus then A.neg v else v

mutual
/-- `as_array` at one item at which the component is built (expression_parser.py:260-268,308-312). -/
def valTree {V α : Type} (A : Alg V) (lv : α → V) : Tree Op α → V
  | .atom a => lv a
  | .pre o t => A.sign o (valTree A lv t)
  | .chain t r => valRest A lv (valTree A lv t) r
def valRest {V α : Type} (A : Alg V) (lv : α → V) (acc : V) : Rest Op α → V
  | .one o t => A.op o acc (valTree A lv t)
  | .more o t r => valRest A lv (A.op o acc (valTree A lv t)) r
end

/-- The value of an operand (expression_parser.py:674-684). -/
def leafVal {V : Type} (A : Alg V) (av : Atom → V) (subs : String → Tree Op Atom) : Leaf → V
  | .atom a => av a
  | .sub n => valTree A av (subs n)

end Arith
end Calliope
