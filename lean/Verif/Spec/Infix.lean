import Verif.Model.Infix

/-!
# The operator grammar as a grammar

Which token lists are renderings of a tree.
-/

namespace Calliope
namespace Infix

variable {O α : Type}

mutual
/-- `Derives g ls t ts`: `ts` is a rendering of the tree `t` that may stand where the levels `ls` may
be used without parentheses. -/
inductive Derives (g : Levels O) : List (O → Bool) → Tree O α → List (Tok O α) → Prop
  | atom (a : α) : Derives g [] (.atom a) [.atom a]
  | pre {o : O} {t : Tree O α} {ts : List (Tok O α)} : g.prefixOp o = true → Derives g [] t ts →
      Derives g [] (.pre o t) (.op o :: ts)
  | paren {t : Tree O α} {ts : List (Tok O α)} : Derives g g.bins t ts →
      Derives g [] t (.lpar :: (ts ++ [.rpar]))
  | lift {b : O → Bool} {ls : List (O → Bool)} {t : Tree O α} {ts : List (Tok O α)} :
      Derives g ls t ts → Derives g (b :: ls) t ts
  | chain {b : O → Bool} {ls : List (O → Bool)} {t : Tree O α} {r : Rest O α}
      {ts rs : List (Tok O α)} :
      Derives g ls t ts → DerivesRest g b ls r rs → Derives g (b :: ls) (.chain t r) (ts ++ rs)
/-- Operators of the level `b` and operands of the tighter levels `ls`, alternating. -/
inductive DerivesRest (g : Levels O) :
    (O → Bool) → List (O → Bool) → Rest O α → List (Tok O α) → Prop
  | one {b : O → Bool} {ls : List (O → Bool)} {o : O} {t : Tree O α} {ts : List (Tok O α)} :
      b o = true → Derives g ls t ts → DerivesRest g b ls (.one o t) (.op o :: ts)
  | more {b : O → Bool} {ls : List (O → Bool)} {o : O} {t : Tree O α} {r : Rest O α}
      {ts rs : List (Tok O α)} :
      b o = true → Derives g ls t ts → DerivesRest g b ls r rs →
      DerivesRest g b ls (.more o t r) (.op o :: (ts ++ rs))
end

/-- No operator belongs to two binary levels. -/
def Levels.Disjoint (g : Levels O) : Prop :=
  g.bins.Pairwise (fun b c => ∀ o, b o = true → c o = false)

/-! ### Formulas and their full-parentheses text -/

/-- A formula with binary operators. -/
inductive Formula (O α : Type) where
  | leaf (a : α)
  | pre (o : O) (φ : Formula O α)
  | bin (o : O) (φ ψ : Formula O α)
  deriving DecidableEq, Repr

/-- All operators are operators of the grammar. -/
def Formula.Ok (g : Levels O) : Formula O α → Prop
  | .leaf _ => True
  | .pre o φ => g.prefixOp o = true ∧ φ.Ok g
  | .bin o φ ψ => (∃ b ∈ g.bins, b o = true) ∧ φ.Ok g ∧ ψ.Ok g

/-- A text in parentheses. -/
def inParens (ts : List (Tok O α)) : List (Tok O α) := .lpar :: (ts ++ [.rpar])

/-- The text of a formula, with every operand that is no leaf in parentheses. -/
def Formula.write : Formula O α → List (Tok O α)
  | .leaf a => [.atom a]
  | .pre o φ => .op o :: inParens φ.write
  | .bin o φ ψ => inParens φ.write ++ (.op o :: inParens ψ.write)

mutual
/-- The formula of a tree, chains being grouped from the left. -/
def Tree.formula : Tree O α → Formula O α
  | .atom a => .leaf a
  | .pre o t => .pre o t.formula
  | .chain t r => r.formula t.formula
def Rest.formula (acc : Formula O α) : Rest O α → Formula O α
  | .one o t => .bin o acc t.formula
  | .more o t r => r.formula (.bin o acc t.formula)
end

end Infix
end Calliope
