import Verif.Model.Arith
import Verif.Spec.Infix

/-!
# Reading arithmetic by the conventions of algebra and Python

A grammar over formulas: sums of products of signed powers, where a power binds tighter than the sign
before it and groups to the right.
-/

namespace Calliope
namespace Arith

open Infix

variable {α : Type}

/-- Kinds of text. -/
inductive Cat where
  | atom | unary | prod | sum
  deriving DecidableEq, Repr

/-- `Conv c φ ts`: the text `ts` of kind `c` reads as the formula `φ`. -/
inductive Conv {α : Type} : Cat → Formula Op α → List (Tok Op α) → Prop
  | leaf (a : α) : Conv .atom (.leaf a) [.atom a]
  | paren {φ : Formula Op α} {ts : List (Tok Op α)} :
      Conv .sum φ ts → Conv .atom φ (.lpar :: (ts ++ [.rpar]))
  | atom {φ : Formula Op α} {ts : List (Tok Op α)} : Conv .atom φ ts → Conv .unary φ ts
  | pow {φ ψ : Formula Op α} {ts us : List (Tok Op α)} :
      Conv .atom φ ts → Conv .unary ψ us → Conv .unary (.bin .pow φ ψ) (ts ++ (.op .pow :: us))
  | sign {o : Op} {φ : Formula Op α} {ts : List (Tok Op α)} :
      o = .plus ∨ o = .minus → Conv .unary φ ts → Conv .unary (.pre o φ) (.op o :: ts)
  | unary {φ : Formula Op α} {ts : List (Tok Op α)} : Conv .unary φ ts → Conv .prod φ ts
  | mul {o : Op} {φ ψ : Formula Op α} {ts us : List (Tok Op α)} :
      o = .times ∨ o = .div → Conv .prod φ ts → Conv .unary ψ us →
      Conv .prod (.bin o φ ψ) (ts ++ (.op o :: us))
  | prod {φ : Formula Op α} {ts : List (Tok Op α)} : Conv .prod φ ts → Conv .sum φ ts
  | add {o : Op} {φ ψ : Formula Op α} {ts us : List (Tok Op α)} :
      o = .plus ∨ o = .minus → Conv .sum φ ts → Conv .prod ψ us →
      Conv .sum (.bin o φ ψ) (ts ++ (.op o :: us))

/-- The value of a formula. -/
def valF {V α : Type} (A : Alg V) (lv : α → V) : Formula Op α → V
  | .leaf a => lv a
  | .pre o φ => A.sign o (valF A lv φ)
  | .bin o φ ψ => A.op o (valF A lv φ) (valF A lv ψ)

/-- Adding or subtracting zero changes nothing. -/
structure Alg.Lawful {V : Type} (A : Alg V) : Prop where
  add_zero : ∀ v, A.op .plus v A.zero = v
  zero_add : ∀ v, A.op .plus A.zero v = v
  sub_zero : ∀ v, A.op .minus v A.zero = v

/-- Texts in which a power has an unsigned atom or parentheses as its base and a possibly signed atom or
parentheses, but no further power, as its exponent.  `Plain.signed`: signs before an atom; `unary`:
that or a power. -/
inductive PCat where
  | atom | signed | power | prod | sum
  deriving DecidableEq, Repr

inductive Plain {α : Type} : PCat → Formula Op α → List (Tok Op α) → Prop
  | leaf (a : α) : Plain .atom (.leaf a) [.atom a]
  | paren {φ : Formula Op α} {ts : List (Tok Op α)} :
      Plain .sum φ ts → Plain .atom φ (.lpar :: (ts ++ [.rpar]))
  | atom {φ : Formula Op α} {ts : List (Tok Op α)} : Plain .atom φ ts → Plain .signed φ ts
  | sign {o : Op} {φ : Formula Op α} {ts : List (Tok Op α)} :
      o = .plus ∨ o = .minus → Plain .signed φ ts → Plain .signed (.pre o φ) (.op o :: ts)
  | signed {φ : Formula Op α} {ts : List (Tok Op α)} : Plain .signed φ ts → Plain .power φ ts
  | pow {φ ψ : Formula Op α} {ts us : List (Tok Op α)} :
      Plain .atom φ ts → Plain .signed ψ us → Plain .power (.bin .pow φ ψ) (ts ++ (.op .pow :: us))
  | power {φ : Formula Op α} {ts : List (Tok Op α)} : Plain .power φ ts → Plain .prod φ ts
  | mul {o : Op} {φ ψ : Formula Op α} {ts us : List (Tok Op α)} :
      o = .times ∨ o = .div → Plain .prod φ ts → Plain .power ψ us →
      Plain .prod (.bin o φ ψ) (ts ++ (.op o :: us))
  | prod {φ : Formula Op α} {ts : List (Tok Op α)} : Plain .prod φ ts → Plain .sum φ ts
  | add {o : Op} {φ ψ : Formula Op α} {ts us : List (Tok Op α)} :
      o = .plus ∨ o = .minus → Plain .sum φ ts → Plain .prod ψ us →
      Plain .sum (.bin o φ ψ) (ts ++ (.op o :: us))

/-! ### LaTeX text that is read as it is meant -/

/-- The kind of a text put in parentheses or not. -/
def parenKind (b : Bool) (c : Cat) : Cat := if b then .atom else c

/-- The kind of the text after one more operator, from the kinds of the texts so far; `none`: it
is not read as it is meant. -/
def stepKind (o : Op) (v : Text) (c e : Cat) : Option Cat :=
  match o with
  | .plus => if e = .sum then none else some .sum
  | .minus => if e = .sum ∨ v = [.atom .zero] then none else some .sum
  | .times => if c = .sum ∨ e = .sum ∨ e = .prod then none else some .prod
  | .div => some .atom
  | .pow => if c = .atom then some .unary else none

mutual
/-- The kind of text that a tree is printed as, if it is read as it is meant: a sign is not put before an
unparenthesised sum or product, `0 -` is not dropped, the base of a power is a single operand or in
parentheses, sub-expressions that are sums are not factors.  `lt`, `lk`: text and kind of operands. -/
def kind (lt : α → Text) (lk : α → Option Cat) : Tree Op α → Option Cat
  | .atom a => lk a
  | .pre o t => match kind lt lk t with
    | some c => if isAdd o && (decide (c = .atom) || decide (c = .unary)) then some .unary else none
    | none => none
  | .chain t r => match kind lt lk t with
    | some c => kindRest lt lk (isChain t) (printTree lt t) c r
    | none => none
def kindRest (lt : α → Text) (lk : α → Option Cat) (first : Bool) (v : Text) (c : Cat) :
    Rest Op α → Option Cat
  | .one o t => match kind lt lk t with
    | some e => stepKind o (paren first v) (parenKind first c) (parenKind (isChain t) e)
    | none => none
  | .more o t r => match kind lt lk t with
    | some e => match stepKind o (paren first v) (parenKind first c) (parenKind (isChain t) e) with
      | some c' => kindRest lt lk first (printStep first (isChain t) v o (printTree lt t)) c' r
      | none => none
    | none => none
end

/-- The kind of text of an operand. -/
def leafKind (subs : String → Tree Op Atom) : Leaf → Option Cat
  | .atom _ => some .atom
  | .sub n => kind (fun a => [.atom a]) (fun _ => some .atom) (subs n)

/-- The LaTeX text of an expression is read as it is meant. -/
def Printable (subs : String → Tree Op Atom) (t : Tree Op Leaf) : Prop :=
  (kind (leafText subs) (leafKind subs) t).isSome = true

end Arith
end Calliope
