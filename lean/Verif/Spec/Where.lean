import Verif.Model.Where
import Verif.Spec.Grid
import Verif.Spec.Infix

/-!
# What `where` strings mean

Truth of a condition at one item `ρ` (a label for each dimension), with no arrays in sight.
-/

namespace Calliope
namespace Where

open Grid Infix

/-- A value counts as given: a true Boolean, or a number or text other than NaN and infinity. -/
def Given (k : Kind) (v : Val) : Prop :=
  (k = .boolean ∧ v = .bool true) ∨
  (k ≠ .boolean ∧ v ≠ .nan ∧ v ≠ .posInf ∧ v ≠ .negInf)

/-- Booleans are the numbers 0 and 1. -/
def asNumber : Val → Val
  | .bool b => .num (if b then 1 else 0)
  | v => v

/-- Less, among numbers and among texts. -/
inductive Less : Val → Val → Prop
  | num {a b : Rat} : a < b → Less (.num a) (.num b)
  | below (a : Rat) : Less .negInf (.num a)
  | above (a : Rat) : Less (.num a) .posInf
  | ends : Less .negInf .posInf
  | text {a b : String} : a < b → Less (.str a) (.str b)

/-- Equal, and not NaN. -/
def Same (a b : Val) : Prop := a = b ∧ a ≠ .nan

def Compares : CmpOp → Val → Val → Prop
  | .eq, l, r => Same (asNumber l) (asNumber r)
  | .lt, l, r => Less (asNumber l) (asNumber r)
  | .gt, l, r => Less (asNumber r) (asNumber l)
  | .le, l, r => Less (asNumber l) (asNumber r) ∨ Same (asNumber l) (asNumber r)
  | .ge, l, r => Less (asNumber r) (asNumber l) ∨ Same (asNumber l) (asNumber r)

/-- The value of an input at an item: its default where it is missing. -/
def valueOf (i : Input) (ρ : String → Label) : Val :=
  if i.arr.at ρ = .nan then i.default else i.arr.at ρ

/-- The `i`-th label of a dimension, counted from the end if negative. -/
def labelAt (e : Env) (d : String) (i : Int) : Val :=
  match (if i < 0 then (e.coords d).reverse[(-i - 1).toNat]? else (e.coords d)[i.toNat]?) with
  | some l => .str l
  | none => .nan

/-- The label of an item along a dimension, NaN if the model has no such dimension. -/
def labelOf (e : Env) (ρ : String → Label) (d : String) : Val :=
  if d ∈ e.dims then .str (ρ d) else .nan

/-- The number of a result at an item. -/
def numberOf (a : Option (Arr Val)) (ρ : String → Label) : Val :=
  match a with
  | some a => a.at ρ
  | none => .nan

def lhsValue (e : Env) (ρ : String → Label) : Lhs → Val
  | .num q => .num q
  | .dim d => labelOf e ρ d
  | .input p => valueOf (e.input p) ρ
  | .config o => (e.config o).getD .nan
  | .valAt d i => labelAt e d i
  | .op o l r => e.arith o (lhsValue e ρ l) (lhsValue e ρ r)
  | .result n => numberOf (e.number n) ρ
  | .total n over => numberOf (e.sums n over) ρ

def rhsValue (e : Env) : Rhs → Val
  | .bool b => .bool b
  | .num q => .num q
  | .inf => .posInf
  | .str s => .str s
  | .valAt d i => labelAt e d i

def LeafTruth (e : Env) (ρ : String → Label) : Leaf → Prop
  | .bool b => b = true
  | .input p => Given (e.input p).kind ((e.input p).arr.at ρ)
  | .result r => ∃ a, e.result r = some a ∧ a.at ρ = true
  | .cmp l o r => Compares o (lhsValue e ρ l) (rhsValue e r)
  | .isIn items d => labelOf e ρ d ∈ items
  | .anyInput p over =>
      ∃ σ, Along e.coords ((e.input p).arr.dims.filter (fun d => over.contains d)) ρ σ ∧
        Given (e.input p).kind ((e.input p).arr.at σ)
  | .anyResult r over =>
      ∃ a, e.result r = some a ∧
        ∃ σ, Along e.coords (a.dims.filter (fun d => over.contains d)) ρ σ ∧ a.at σ = true
  | .defined sel within .any =>
      ∃ τ, Along (restrict sel e.coords) (sel.map Prod.fst) ρ τ ∧
        ∃ σ, Along e.coords
          (e.matrix.dims.filter (fun d => !(within :: sel.map Prod.fst).contains d)) τ σ ∧
          e.matrix.at σ = true
  | .defined sel within .all =>
      ∀ τ, Along (restrict sel e.coords) (sel.map Prod.fst) ρ τ →
        ∃ σ, Along e.coords
          (e.matrix.dims.filter (fun d => !(within :: sel.map Prod.fst).contains d)) τ σ ∧
          e.matrix.at σ = true

/-- The connective of an operator. -/
def connect : Op → Prop → Prop → Prop
  | .and, p, q => p ∧ q
  | .or, p, q => p ∨ q
  | .not, p, _ => p

mutual
/-- The truth of a parsed condition; a chain of operators is read from left to right. -/
def Truth (e : Env) (ρ : String → Label) : Tree Op Leaf → Prop
  | .atom l => LeafTruth e ρ l
  | .pre _ t => ¬ Truth e ρ t
  | .chain t r => RestTruth e ρ (Truth e ρ t) r
def RestTruth (e : Env) (ρ : String → Label) (p : Prop) : Rest Op Leaf → Prop
  | .one o t => connect o p (Truth e ρ t)
  | .more o t r => RestTruth e ρ (connect o p (Truth e ρ t)) r
end

/-- An item of the model: every label is one of its dimension. -/
def Valid (e : Env) (σ : String → Label) : Prop := ∀ d, σ d ∈ e.coords d

/-- Two items with the same labels along the dimensions `sets`. -/
def SameAlong (sets : List String) (ρ σ : String → Label) : Prop := ∀ d ∈ sets, σ d = ρ d

end Where
end Calliope
