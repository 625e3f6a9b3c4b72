import Verif.Model.Where

/-!
# Model of the LaTeX text of conditions

Source: `/repo/src/calliope/backend/where_parser.py:24-72,308-336`,
`/repo/src/calliope/backend/expression_parser.py:240-258`, `/repo/src/calliope/backend/parsing.py:250-253`.

The text of an operand is one token; `\land`, `\lor` and `\neg` are the operators.
-/

namespace Calliope
namespace Where

open Infix

abbrev Text := List (Tok Op Leaf)

/-- The text `true`. -/
def trueText : Text := [.atom (.bool true)]

/-- `"(" + val + ")"`. -/
def paren (b : Bool) (e : Text) : Text := if b then .lpar :: (e ++ [.rpar]) else e

/-- `isinstance(x, type(self))` for `self` a chain of operators. -/
def isChain : Tree Op Leaf → Bool
  | .chain _ _ => true
  | _ => false

/-- `_skip_component_on_conditional` (where_parser.py:49-50). -/
def skip (e : Text) (o : Op) : Bool :=
  decide (e = trueText) && (decide (o = .and) || decide (o = .or))

/-- One turn of the loop of `as_math_string` (expression_parser.py:243-257). -/
def printStep (first nested : Bool) (v : Text) (o : Op) (e : Text) : Text :=
  if skip e o then v
  else if skip (paren first v) o then paren nested e
  else paren first v ++ (.op o :: paren nested e)

mutual
/-- `as_math_string` (where_parser.py:27-29,68-69). -/
def printTree : Tree Op Leaf → Text
  | .atom a => [.atom a]
  | .pre o t => .op o :: paren true (printTree t)
  | .chain t r => printRest (isChain t) (printTree t) r
def printRest (first : Bool) (v : Text) : Rest Op Leaf → Text
  | .one o t => printStep first (isChain t) v o (printTree t)
  | .more o t r => printRest first (printStep first (isChain t) v o (printTree t)) r
end

/-- `r"\land{}".join(f"({i})" for i in evaluated_wheres if i != "true")` (parsing.py:253), after a first
condition. -/
def joinAnd : List Text → Text
  | [] => []
  | [t] => paren true t
  | t :: ts => paren true t ++ (.op .and :: joinAnd ts)

/-- The text of the conditions of an equation. -/
def whereText (ws : List (Tree Op Leaf)) : Text :=
  joinAnd ((ws.map printTree).filter (fun t => decide (t ≠ trueText)))

end Where
end Calliope
