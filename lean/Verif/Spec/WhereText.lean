import Verif.Model.WhereText
import Verif.Spec.Where

/-!
# Reading conditions by the conventions of logic

Negation before conjunction before disjunction.
-/

namespace Calliope
namespace Where

open Infix

/-- The conventional table of operators. -/
def convLevels : Levels Op where
  prefixOp o := decide (o = .not)
  bins := [fun o => decide (o = .or), fun o => decide (o = .and)]

/-- `ConvReads t ts`: by the conventions of logic, `ts` reads as `t`. -/
def ConvReads (t : Tree Op Leaf) (ts : Text) : Prop := Derives convLevels convLevels.bins t ts

/-- Kinds of text. -/
inductive Kd where
  | atom | conj | disj
  deriving DecidableEq, Repr

def parenKd (b : Bool) (c : Kd) : Kd := if b then .atom else c

/-- The kind of the text after one more operator; `none`: it is not read as it is meant. -/
def stepKd (first : Bool) (o : Op) (v e : Text) (c : Kd) : Option Kd :=
  match o with
  | .and => if e = trueText then some c else if parenKd first c = .disj then none else some .conj
  | .or => if paren first v = trueText ∨ e = trueText then none else some .disj
  | .not => none

mutual
/-- The kind of text that a condition is printed as, if it is read as it is meant: no AND after an OR
in a chain whose first operand is not in parentheses, no OR with `true`. -/
def kd : Tree Op Leaf → Option Kd
  | .atom _ => some .atom
  | .pre o t => if o = .not then (kd t).map (fun _ => .atom) else none
  | .chain t r => match kd t with
    | some c => kdRest (isChain t) (printTree t) c r
    | none => none
def kdRest (first : Bool) (v : Text) (c : Kd) : Rest Op Leaf → Option Kd
  | .one o t => match kd t with
    | some _ => stepKd first o v (printTree t) c
    | none => none
  | .more o t r => match kd t with
    | some _ => match stepKd first o v (printTree t) c with
      | some c' => kdRest first (printStep first (isChain t) v o (printTree t)) c' r
      | none => none
    | none => none
end

/-- The LaTeX text of a condition is read as it is meant. -/
def PrintableCond (t : Tree Op Leaf) : Prop := (kd t).isSome = true

end Where
end Calliope
