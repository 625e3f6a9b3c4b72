import Verif.Model.WhereGrammar
import Verif.Spec.Grammar

/-!
# Specification: what `where` strings say

As `Spec/Grammar.lean`: the rules have no order and do not say how to read.
-/

namespace Calliope
namespace Grammar

open Arith (isAdd isMul isPow)
open Where (CmpOp)

/-- The word `w`, in capitals or not. -/
def Word (w s : Str) : Prop := s.map Char.toLower = w

/-- It does not start with one of these words. -/
def StartsNot (ws : List String) (ts : List Tok) : Prop :=
  ∀ b s r, ts = (b, .id s) :: r → ∀ w ∈ ws, ¬ Word w.toList s

/-- Items of subsets: `config.name`, a number, or a text. -/
inductive SSetItem : SetItem → List Tok → Prop
  | config {b b' : Bool} {s : Str} : ¬ Inf s →
      SSetItem (.config s) [(b, .id ['c', 'o', 'n', 'f', 'i', 'g']), (true, .dot), (b', .id s)]
  | num {s : Str} {ts : List Tok} : Signed s ts → SSetItem (.num s) ts
  | text {b : Bool} {s : Str} : ¬ Inf s → SSetItem (.text s) [(b, .id s)]

/-- Items with commas between them. -/
inductive SSet : List SetItem → List Tok → Prop
  | one {i : SetItem} {ts : List Tok} : SSetItem i ts → SSet [i] ts
  | more {b : Bool} {i : SetItem} {is : List SetItem} {ts us : List Tok} : SSetItem i ts → SSet is us →
      SSet (i :: is) (ts ++ (b, .comma) :: us)

/-- What may be written to the left of a comparison: operators, functions, `config.name`, dimensions and inputs; results
and postprocessed expressions where there are postprocessed expressions. -/
def inComparisons (n : WNames) : Gram where
  subs := false
  slices := false
  refs := false
  config := true
  ops := true
  nested := true
  textFirst := true
  comp s := n.dims s || n.inputs s || (n.hasPost && (n.results s || n.post s))
  known s := n.dims s || n.inputs s || n.results s || n.post s
  listed := n.dims

/-- What may be written in a function that is a condition: names and `config.name`, without operators. -/
def inFunctions (n : WNames) : Gram where
  subs := false
  slices := false
  refs := false
  config := true
  ops := false
  nested := false
  textFirst := true
  comp s := n.dims s || n.inputs s || n.results s || n.post s
  known s := n.dims s || n.inputs s || n.results s || n.post s
  listed := n.dims

/-- What is compared with: a function, `true`, `false`, a number or a text. -/
inductive SRhs (n : WNames) : CRhs → List Tok → Prop
  | call {b b' : Bool} {f : Str} {as : Args} {ks : Kws} {ts : List Tok} : ¬ Inf f → SFun (inComparisons n) as ks ts →
      SRhs n (.call f as ks) ((b, .id f) :: (true, .lpar) :: (ts ++ [(b', .rpar)]))
  | yes {b : Bool} {s : Str} : Word "true".toList s → SRhs n (.bool true) [(b, .id s)]
  | no {b : Bool} {s : Str} : Word "false".toList s → SRhs n (.bool false) [(b, .id s)]
  | num {s : Str} {ts : List Tok} : Signed s ts → SRhs n (.num s) ts
  | text {b : Bool} {s : Str} : ¬ Inf s → StartsNot ["true", "false"] [(b, .id s)] → SRhs n (.text s) [(b, .id s)]

/-- Conditions without operators.  `true` and `false` at the start stand for themselves. -/
inductive SLeaf (n : WNames) : WLeaf → List Tok → Prop
  | yes {b : Bool} {s : Str} : Word "true".toList s → SLeaf n (.bool true) [(b, .id s)]
  | no {b : Bool} {s : Str} : Word "false".toList s → SLeaf n (.bool false) [(b, .id s)]
  | cmp {b : Bool} {l : Ast} {o : CmpOp} {r : CRhs} {ts us : List Tok} : Spells (inComparisons n) [isAdd, isMul, isPow] l ts → SRhs n r us →
      StartsNot ["true", "false"] ts → SLeaf n (.cmp l o r) (ts ++ (b, .cmp o) :: us)
  | call {b b' : Bool} {f : Str} {as : Args} {ks : Kws} {ts : List Tok} : ¬ Inf f → SFun (inFunctions n) as ks ts →
      StartsNot ["true", "false"] [(b, .id f)] →
      SLeaf n (.call f as ks) ((b, .id f) :: (true, .lpar) :: (ts ++ [(b', .rpar)]))
  | isIn {b b' : Bool} {l : List SetItem} {d : Str} {ts : List Tok} : SSet l ts → n.dims d = true →
      SLeaf n (.isIn l d) ((b, .lsq) :: (ts ++ [(b', .rsq), (false, .id ['i', 'n']), (false, .id d)]))
  | input {b : Bool} {s : Str} : n.inputs s = true → StartsNot ["true", "false"] [(b, .id s)] →
      SLeaf n (.input s) [(b, .id s)]
  | result {b : Bool} {s : Str} : n.results s = true ∨ n.post s = true → n.inputs s = false →
      StartsNot ["true", "false"] [(b, .id s)] → SLeaf n (.result s) [(b, .id s)]

/-- The words `and` and `or`. -/
inductive SWord : Where.Op → List Tok → Prop
  | and {b : Bool} {s : Str} : Word "and".toList s → SWord .and [(b, .id s)]
  | or {b : Bool} {s : Str} : Word "or".toList s → SWord .or [(b, .id s)]

mutual
/-- Conditions with `not` or in parentheses: `not` at the start stands for itself. -/
inductive SNot (n : WNames) : Infix.Tree Where.Op WLeaf → List Tok → Prop
  | leaf {l : WLeaf} {ts : List Tok} : SLeaf n l ts → StartsNot ["not"] ts → SNot n (.atom l) ts
  | neg {b : Bool} {s : Str} {t : Infix.Tree Where.Op WLeaf} {ts : List Tok} : Word "not".toList s → SNot n t ts →
      SNot n (.pre .not t) ((b, .id s) :: ts)
  | paren {b b' : Bool} {t : Infix.Tree Where.Op WLeaf} {ts : List Tok} : SCond n t ts →
      SNot n t ((b, .lpar) :: (ts ++ [(b', .rpar)]))
/-- Conditions with `and` and `or`, from left to right. -/
inductive SCond (n : WNames) : Infix.Tree Where.Op WLeaf → List Tok → Prop
  | one {t : Infix.Tree Where.Op WLeaf} {ts : List Tok} : SNot n t ts → SCond n t ts
  | chain {t : Infix.Tree Where.Op WLeaf} {r : Infix.Rest Where.Op WLeaf} {ts us : List Tok} : SNot n t ts →
      SConds n r us → SCond n (.chain t r) (ts ++ us)
inductive SConds (n : WNames) : Infix.Rest Where.Op WLeaf → List Tok → Prop
  | last {o : Where.Op} {t : Infix.Tree Where.Op WLeaf} {us ts : List Tok} : SWord o us → SNot n t ts →
      SConds n (.one o t) (us ++ ts)
  | next {o : Where.Op} {t : Infix.Tree Where.Op WLeaf} {r : Infix.Rest Where.Op WLeaf} {us ts vs : List Tok} :
      SWord o us → SNot n t ts → SConds n r vs → SConds n (.more o t r) (us ++ (ts ++ vs))
end

end Grammar
end Calliope
