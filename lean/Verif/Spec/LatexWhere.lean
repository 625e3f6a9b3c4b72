import Verif.Model.LatexWhere
import Verif.Spec.Where

/-!
# Specification: what a reader takes the operands of documented conditions to mean
-/

namespace Calliope
namespace LatexWhere

open Grid (Label Arr)
open Where

/-- The value of a term at an item. -/
def Term.value (e : Env) (ρ : String → Label) : Term → Where.Val
  | .num q => .num q
  | .dim d => if d ∈ e.dims then .str (ρ d) else .nan
  | .input p sub => if (e.input p).arr.val (sub.map ρ) = .nan then (e.input p).default else (e.input p).arr.val (sub.map ρ)
  | .config o => (e.config o).getD .nan
  | .nth d i => match (if i < 0 then (e.coords d).reverse[(-i - 1).toNat]? else (e.coords d)[i.toNat]?) with
    | some l => .str l
    | none => .nan
  | .op o l r => e.arith o (l.value e ρ) (r.value e ρ)
  | .result n sub => match e.number n with
    | some a => a.val (sub.map ρ)
    | none => .nan
  | .sum n over => match e.sums n over with
    | some a => a.at ρ
    | none => .nan
  | .bool b => .bool b
  | .inf => .posInf
  | .str s => .str s

/-- The relation that a sign stands for. -/
def Sign.Holds : Sign → Where.Val → Where.Val → Prop
  | .leq, a, b => Less (asNumber a) (asNumber b) ∨ Same (asNumber a) (asNumber b)
  | .geq, a, b => Less (asNumber b) (asNumber a) ∨ Same (asNumber a) (asNumber b)
  | .equal, a, b => Same (asNumber a) (asNumber b)
  | .less, a, b => Less (asNumber a) (asNumber b)
  | .more, a, b => Less (asNumber b) (asNumber a)

/-- `v` of dimension `d` is defined in `l` of dimension `w`. -/
def DefinedIn (e : Env) (d : String) (v : Label) (w : String) (l : Label) : Prop :=
  ∃ σ : String → Label, σ d = v ∧ σ w = l ∧ (∀ x ∈ e.matrix.dims, σ x ∈ e.coords x) ∧ e.matrix.at σ = true

/-- What a text says of an item: `\exists` that there is a value, `\bigvee` over dimensions that it is so for some of
their labels. -/
def Atom.Says (e : Env) : Atom → (String → Label) → Prop
  | .word b, _ => b = true
  | .exist p sub, ρ => (e.input p).arr.val (sub.map ρ) ≠ .nan
  | .result r sub, ρ => ∃ a, e.result r = some a ∧ a.val (sub.map ρ) = true
  | .cmp l o r, ρ => o.Holds (l.value e ρ) (r.value e ρ)
  | .isIn d items, ρ => (if d ∈ e.dims then Where.Val.str (ρ d) else .nan) ∈ items
  | .vee over a, ρ => ∃ σ, Grid.Along e.coords over ρ σ ∧ a.Says e σ
  | .within false d vals w, ρ => ∃ v ∈ vals, DefinedIn e d v w (ρ w)
  | .within true d vals w, ρ => ∀ v ∈ vals, DefinedIn e d v w (ρ w)
  | .wedge a b, ρ => a.Says e ρ ∧ b.Says e ρ

/-- An input without Booleans and infinite values. -/
def Finite (i : Input) : Prop := i.kind ≠ .boolean ∧ ∀ c, i.arr.val c ≠ .posInf ∧ i.arr.val c ≠ .negInf

/-- Operands that are documented as they are evaluated: inputs are no Booleans and finite, `any` is over dimensions that
are not empty, and `defined` is about one dimension. -/
def Plain (e : Env) : Leaf → Prop
  | .input p => Finite (e.input p)
  | .anyInput p over => Finite (e.input p) ∧ ∀ d ∈ over, e.coords d ≠ []
  | .anyResult _ over => ∀ d ∈ over, e.coords d ≠ []
  | .defined sel w _ => ∃ d vals, sel = [(d, vals)] ∧ d ≠ w
  | _ => True

mutual
/-- A condition, given what its operands say; a chain of operators is read from left to right. -/
def Holds (S : Leaf → Prop) : Infix.Tree Op Leaf → Prop
  | .atom l => S l
  | .pre _ t => ¬ Holds S t
  | .chain t r => HoldsRest S (Holds S t) r
def HoldsRest (S : Leaf → Prop) (p : Prop) : Infix.Rest Op Leaf → Prop
  | .one o t => connect o p (Holds S t)
  | .more o t r => HoldsRest S (connect o p (Holds S t)) r
end

mutual
/-- The operands of a condition. -/
def operands : Infix.Tree Op Leaf → List Leaf
  | .atom l => [l]
  | .pre _ t => operands t
  | .chain t r => operands t ++ operandsRest r
def operandsRest : Infix.Rest Op Leaf → List Leaf
  | .one _ t => operands t
  | .more _ t r => operands t ++ operandsRest r
end

end LatexWhere
end Calliope
