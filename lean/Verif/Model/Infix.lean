/-!
# Model of the operator grammar of math strings

Source: `/repo/src/calliope/backend/where_parser.py:528-553` and
`/repo/src/calliope/backend/expression_parser.py:1081-1119`, both calls of `pyparsing.infixNotation`
with one prefix operator level, the tightest, and binary, left-grouping levels above it.

`infixNotation` builds, for each level, a parser that tries "operand (operator operand)+" and falls
back to the next tighter level; parentheses restart at the loosest level.

Simplifications: the input is a list of tokens; operands (names, numbers, comparisons, helper
functions, ...) are single tokens, of type `α`, so that spelling, white space and the grammar of
operands are not modelled.
-/

namespace Calliope
namespace Infix

/-- A token: parentheses, an operator, or an operand. -/
inductive Tok (O α : Type) where
  | lpar
  | rpar
  | op (o : O)
  | atom (a : α)
  deriving DecidableEq, Repr

mutual
/-- What the parse actions build: operands, `EvalSignOp`/`EvalNot` (expression_parser.py:272-319,
where_parser.py:24-35) and `EvalOperatorOperand`/`EvalAndOr` (expression_parser.py:154-177,
where_parser.py:38-72), whose value is the list `[operand, operator, operand, ...]`. -/
inductive Tree (O α : Type) where
  | atom (a : α)
  | pre (o : O) (t : Tree O α)
  | chain (t : Tree O α) (r : Rest O α)
inductive Rest (O α : Type) where
  | one (o : O) (t : Tree O α)
  | more (o : O) (t : Tree O α) (r : Rest O α)
end

/-- The argument of `infixNotation`: the prefix operators, and the binary levels, here with the loosest
first. -/
structure Levels (O : Type) where
  prefixOp : O → Bool
  bins : List (O → Bool)

variable {O α : Type}

mutual
/-- The parser of the levels `ls`.  `none`: no match (or more than `fuel` nested calls). -/
def pExpr (g : Levels O) : Nat → List (O → Bool) → List (Tok O α) →
    Option (Tree O α × List (Tok O α))
  | 0, _, _ => none
  | f + 1, [], ts =>
      match ts with
      | .op o :: ts' =>
          if g.prefixOp o then
            match pExpr g f [] ts' with
            | some (t, r) => some (.pre o t, r)
            | none => none
          else none
      | .atom a :: ts' => some (.atom a, ts')
      | .lpar :: ts' =>
          match pExpr g f g.bins ts' with
          | some (t, .rpar :: r) => some (t, r)
          | _ => none
      | _ => none
  | f + 1, b :: ls, ts =>
      match pExpr g f ls ts with
      | none => none
      | some (t, r) =>
          match pRest g f b ls r with
          | none => some (t, r)
          | some (rs, r') => some (.chain t rs, r')
/-- The parser of "(operator operand)+". -/
def pRest (g : Levels O) : Nat → (O → Bool) → List (O → Bool) → List (Tok O α) →
    Option (Rest O α × List (Tok O α))
  | 0, _, _, _ => none
  | f + 1, b, ls, ts =>
      match ts with
      | .op o :: ts' =>
          if b o then
            match pExpr g f ls ts' with
            | none => none
            | some (t, r) =>
                match pRest g f b ls r with
                | none => some (.one o t, r)
                | some (rs, r') => some (.more o t rs, r')
          else none
      | _ => none
end

/-- Enough nested calls for an input of this length (see `Proofs/Infix.lean`). -/
def fuelFor (g : Levels O) (n : Nat) : Nat := (g.bins.length + 3) * n + g.bins.length + 1

/-- `parser.parse_string(s, parse_all=True)` (parsing.py:528-535). -/
def parse (g : Levels O) (ts : List (Tok O α)) : Option (Tree O α) :=
  match pExpr g (fuelFor g ts.length) g.bins ts with
  | some (t, []) => some t
  | _ => none

end Infix
end Calliope
