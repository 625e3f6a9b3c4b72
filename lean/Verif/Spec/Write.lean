import Verif.Model.MathText
import Verif.Spec.WhereGrammar

/-!
# Specification: texts of expressions, conditions and components

How expressions, slices, conditions and components are written in math files, as the documentation of math syntax
(`/repo/docs/user_defined_math/syntax.md`, `/repo/docs/user_defined_math/helper_functions.md`) has it.  Every operand of
an operator is in parentheses, so that nothing is said about precedence (which `Spec/Infix.lean` and
`Spec/Grammar.lean` are about).
-/

namespace Calliope
namespace Write

open Grammar (Str IdText Digits Inf Word)
open MathText (Ex ExRest)

/-! ### Names and numbers -/

/-- A name, other than `inf`. -/
def Name (n : String) : Prop := IdText n.toList ∧ ¬ Inf n.toList

/-- The value of digits. -/
def natural : Str → Nat
  | [] => 0
  | c :: r => (c.toNat - '0'.toNat) * 10 ^ r.length + natural r

/-- Numbers that are not negative. -/
inductive Number : Rat → Str → Prop
  | whole {ds : Str} : Digits ds → ds ≠ [] → Number (natural ds) ds
  | point {ds fs : Str} : Digits ds → ds ≠ [] → Digits fs →
      Number (natural ds + (natural fs : Rat) / (10 : Rat) ^ fs.length) (ds ++ '.' :: fs)

/-- Whole numbers. -/
inductive Whole : Int → Str → Prop
  | plain {ds : Str} : Digits ds → ds ≠ [] → Whole (natural ds) ds
  | minus {ds : Str} : Digits ds → ds ≠ [] → Whole (-(natural ds : Int)) ('-' :: ds)

/-! ### Functions and lists -/

/-- Texts with commas between them. -/
def commas : List Str → Str
  | [] => []
  | [a] => a
  | a :: b :: r => a ++ (',' :: ' ' :: commas (b :: r))

/-- A call of a helper function. -/
def call (f : String) (args : List Str) : Str := f.toList ++ '(' :: (commas args ++ [')'])

/-- An argument with a keyword. -/
def key (k : String) (v : Str) : Str := k.toList ++ '=' :: v

/-- A text in parentheses. -/
def paren (s : Str) : Str := '(' :: (s ++ [')'])

/-- A text in brackets. -/
def bracket (s : Str) : Str := '[' :: (s ++ [']'])

/-- Dimensions: a name, or names in brackets. -/
inductive Over : List String → Str → Prop
  | one {d : String} : Name d → Over [d] d.toList
  | list {l : List String} : l ≠ [] → (∀ d ∈ l, Name d) → Over l (bracket (commas (l.map String.toList)))

/-- `dim=n` for every dimension that is shifted. -/
inductive Shifts : List (String × Int) → List Str → Prop
  | nil : Shifts [] []
  | cons {d : String} {i : Int} {s : Str} {l : List (String × Int)} {ss : List Str} : Name d → Whole i s → Shifts l ss →
      Shifts ((d, i) :: l) (key d s :: ss)

/-! ### Expressions -/

/-- `+`, `-`, `*`, `/` and `**`. -/
def operator : Arith.Op → Str
  | .plus => ['+']
  | .minus => ['-']
  | .times => ['*']
  | .div => ['/']
  | .pow => ['*', '*']

/-- `+` and `-`, or `*` and `/`, or `**`. -/
def Together (a b : Arith.Op) : Prop :=
  (a ∈ [Arith.Op.plus, .minus] ∧ b ∈ [Arith.Op.plus, .minus]) ∨ (a ∈ [Arith.Op.times, .div] ∧ b ∈ [Arith.Op.times, .div]) ∨
    (a = .pow ∧ b = .pow)

/-- A slice: a label, or `$name`. -/
inductive Slice (known : Str → Bool) : Expr.Slicer → Str → Prop
  | label {l : String} : Name l → known l.toList = false → Slice known (.label l) l.toList
  | ref {n : String} : Name n → Slice known (.ref n) ('$' :: n.toList)

/-- `dim=slice` for every dimension that is sliced. -/
inductive Slices (known : Str → Bool) : List (String × Expr.Slicer) → List Str → Prop
  | nil : Slices known [] []
  | cons {d : String} {x : Expr.Slicer} {s : Str} {l : List (String × Expr.Slicer)} {ss : List Str} : Name d →
      Slice known x s → Slices known l ss → Slices known ((d, x) :: l) (key d s :: ss)

mutual
/-- The text of an expression; `known`: the names of components, `subs`: references to sub-expressions may be used. -/
inductive Text (known : Str → Bool) (subs : Bool) : Ex → Str → Prop
  | num {v : Rat} {s : Str} : Number v s → Text known subs (.num v) s
  | comp {n : String} : Name n → known n.toList = true → Text known subs (.comp n) n.toList
  | sliced {n : String} {l : List (String × Expr.Slicer)} {ss : List Str} : Name n → known n.toList = true → l ≠ [] →
      Slices known l ss → Text known subs (.sliced n l) (n.toList ++ bracket (commas ss))
  | sub {n : String} : subs = true → Name n → Text known subs (.sub n) ('$' :: n.toList)
  | sign {o : Arith.Op} {t : Ex} {s : Str} : o ∈ [Arith.Op.plus, .minus] → Text known subs t s →
      Text known subs (.sign o t) (operator o ++ paren s)
  | chain {o : Arith.Op} {t : Ex} {r : ExRest} {s u : Str} : Text known subs t s → RestText known subs o r u →
      Text known subs (.chain t r) (paren s ++ u)
  | sum {t : Ex} {l : List String} {s u : Str} : Text known subs t s → Over l u →
      Text known subs (.sum t l) (call "sum" [s, key "over" u])
  | reduceCarrier {t : Ex} {f : String} {s : Str} : Text known subs t s → Name f →
      Text known subs (.reduceCarrier t f) (call "reduce_carrier_dim" [s, f.toList])
  | cond {t c : Ex} {s u : Str} : Text known subs t s → Text known subs c u →
      Text known subs (.cond t c) (call "where" [s, u])
  | roll {t : Ex} {l : List (String × Int)} {s : Str} {ss : List Str} : Text known subs t s → Shifts l ss →
      Text known subs (.roll t l) (call "roll" (s :: ss))
  | groupSum {t : Ex} {g d : String} {s : Str} : Text known subs t s → Name g → Name d →
      Text known subs (.groupSum t g d) (call "group_sum" [s, g.toList, d.toList])
  | groupDatetime {t : Ex} {d g : String} {s : Str} : Text known subs t s → Name d → Name g →
      Text known subs (.groupDatetime t d g) (call "group_datetime" [s, d.toList, g.toList])
  | sumNextN {t : Ex} {d : String} {n : Int} {s u : Str} : Text known subs t s → Name d → Whole n u →
      Text known subs (.sumNextN t d n) (call "sum_next_n" [s, d.toList, u])
  | select {t : Ex} {l : List (String × String)} {s : Str} : Text known subs t s → (∀ p ∈ l, Name p.1 ∧ Name p.2) →
      Text known subs (.select t l)
        (call "select_from_lookup_arrays" (s :: l.map (fun p => key p.1 p.2.toList)))
/-- Operators that stand together with `o`, and operands. -/
inductive RestText (known : Str → Bool) (subs : Bool) : Arith.Op → ExRest → Str → Prop
  | one {o o' : Arith.Op} {t : Ex} {s : Str} : Together o o' → Text known subs t s →
      RestText known subs o (.one o' t) (' ' :: (operator o' ++ (' ' :: paren s)))
  | more {o o' : Arith.Op} {t : Ex} {r : ExRest} {s u : Str} : Together o o' → Text known subs t s →
      RestText known subs o r u →
      RestText known subs o (.more o' t r) (' ' :: (operator o' ++ (' ' :: (paren s ++ u))))
end

/-- The text of the expression of a constraint. -/
inductive EquationText (known : Str → Bool) : Expand.Body Rat → Str → Prop
  | le {l r : Ex} {s u : Str} : Text known true l s → Text known true r u →
      EquationText known (.cmp l "<=" r) (s ++ (" <= ".toList ++ u))
  | ge {l r : Ex} {s u : Str} : Text known true l s → Text known true r u →
      EquationText known (.cmp l ">=" r) (s ++ (" >= ".toList ++ u))
  | eq {l r : Ex} {s u : Str} : Text known true l s → Text known true r u →
      EquationText known (.cmp l "==" r) (s ++ (" == ".toList ++ u))

/-- The text of the expression of a global expression, an objective or a postprocessed array. -/
inductive ArithmeticText (known : Str → Bool) : Expand.Body Rat → Str → Prop
  | arith {t : Ex} {s : Str} : Text known true t s → ArithmeticText known (.arith t) s

/-- The text of a sub-expression: no references in it. -/
def SubText (known : Str → Bool) (t : Ex) (s : Str) : Prop := Text known false t s

/-- The text of a slice. -/
inductive SliceText (known : Str → Bool) : Expr.SliceDef → Str → Prop
  | label {l : String} : Name l → known l.toList = false → SliceText known (.label l) l.toList
  | valAt {d : String} {i : Int} {s : Str} : Name d → Whole i s →
      SliceText known (.valAt d i) (call "get_val_at_index" [key d s])
  | lookup {n : String} : Name n → known n.toList = true → SliceText known (.lookup n []) n.toList
  | rolled {n : String} {l : List (String × Int)} {ss : List Str} : Name n → known n.toList = true → l ≠ [] →
      Shifts l ss → SliceText known (.lookup n l) (call "roll" (n.toList :: ss))

/-! ### Conditions -/

/-- A name in conditions: not one of the words `true` and `false`, nor `not`. -/
def Plain (n : String) : Prop :=
  Name n ∧ ¬ Word "true".toList n.toList ∧ ¬ Word "false".toList n.toList ∧ ¬ Word "not".toList n.toList

/-- Numbers with a sign or not. -/
inductive SignedNumber : Rat → Str → Prop
  | plain {q : Rat} {s : Str} : Number q s → SignedNumber q s
  | minus {q : Rat} {s : Str} : Number q s → SignedNumber (-q) ('-' :: s)

/-- What is compared: a name stands for a dimension, if it is no dimension, for an input, and if it is none, for a result
where results may be compared. -/
inductive LeftText (n : Grammar.WNames) : Where.Lhs → Str → Prop
  | num {q : Rat} {s : Str} : Number q s → LeftText n (.num q) s
  | dim {d : String} : Plain d → n.dims d.toList = true → LeftText n (.dim d) d.toList
  | input {p : String} : Plain p → n.dims p.toList = false → n.inputs p.toList = true → LeftText n (.input p) p.toList
  | result {r : String} : Plain r → n.dims r.toList = false → n.inputs r.toList = false → n.hasPost = true →
      n.results r.toList = true ∨ n.post r.toList = true → LeftText n (.result r) r.toList
  | config {o : String} : Name o → n.dims "config".toList = false ∧ n.inputs "config".toList = false ∧
      n.results "config".toList = false ∧ n.post "config".toList = false → LeftText n (.config o) ("config.".toList ++ o.toList)
  | valAt {d : String} {i : Int} {s : Str} : Name d → Whole i s →
      LeftText n (.valAt d i) (call "get_val_at_index" [key d s])
  | total {m : String} {l : List String} {u : Str} : Name m → n.dims m.toList = true ∨ n.inputs m.toList = true ∨
      n.hasPost = true ∧ (n.results m.toList = true ∨ n.post m.toList = true) → Over l u →
      (∀ d ∈ l, n.dims d.toList = true) → LeftText n (.total m l) (call "sum" [m.toList, key "over" u])

/-- What it is compared with. -/
inductive RightText : Where.Rhs → Str → Prop
  | yes : RightText (.bool true) "True".toList
  | no : RightText (.bool false) "False".toList
  | num {q : Rat} {s : Str} : SignedNumber q s → RightText (.num q) s
  | inf : RightText .inf "inf".toList
  | str {s : String} : Plain s → RightText (.str s) s.toList
  | valAt {d : String} {i : Int} {s : Str} : Name d → Whole i s →
      RightText (.valAt d i) (call "get_val_at_index" [key d s])

/-- Comparisons. -/
def comparison : Where.CmpOp → Str
  | .lt => ['<']
  | .gt => ['>']
  | .eq => ['=', '=']
  | .ge => ['>', '=']
  | .le => ['<', '=']

/-- The elements of a subset: texts and numbers. -/
inductive ElementText : Where.Val → Str → Prop
  | str {s : String} : Name s → ElementText (.str s) s.toList
  | num {q : Rat} {s : Str} : SignedNumber q s → ElementText (.num q) s

/-- Conditions without operators. -/
inductive LeafText (n : Grammar.WNames) : Where.Leaf → Str → Prop
  | yes : LeafText n (.bool true) "True".toList
  | no : LeafText n (.bool false) "False".toList
  | input {p : String} : Plain p → n.inputs p.toList = true → LeafText n (.input p) p.toList
  | result {r : String} : Plain r → n.results r.toList = true ∨ n.post r.toList = true → n.inputs r.toList = false →
      LeafText n (.result r) r.toList
  | cmp {l : Where.Lhs} {o : Where.CmpOp} {r : Where.Rhs} {s u : Str} : LeftText n l s → RightText r u →
      LeafText n (.cmp l o r) (s ++ (' ' :: (comparison o ++ (' ' :: u))))
  | isIn {l : List Where.Val} {d : String} {ss : List Str} : l ≠ [] → List.Forall₂ ElementText l ss → Name d →
      n.dims d.toList = true → LeafText n (.isIn l d) (bracket (commas ss) ++ (" in ".toList ++ d.toList))
  | anyInput {p : String} {l : List String} {u : Str} : Name p → n.inputs p.toList = true → Over l u →
      (∀ d ∈ l, n.dims d.toList = true) → LeafText n (.anyInput p l) (call "any" [p.toList, key "over" u])
  | anyResult {r : String} {l : List String} {u : Str} : Name r → n.results r.toList = true ∨ n.post r.toList = true →
      n.inputs r.toList = false → Over l u → (∀ d ∈ l, n.dims d.toList = true) →
      LeafText n (.anyResult r l) (call "any" [r.toList, key "over" u])

mutual
/-- The text of a condition. -/
inductive CondText (n : Grammar.WNames) : Build.Cond → Str → Prop
  | leaf {x : Where.Leaf} {s : Str} : LeafText n x s → CondText n (.atom x) s
  | not {c : Build.Cond} {s : Str} : CondText n c s → CondText n (.pre .not c) ("not ".toList ++ paren s)
  | chain {c : Build.Cond} {r : Infix.Rest Where.Op Where.Leaf} {s u : Str} : CondText n c s → CondsText n r u →
      CondText n (.chain c r) (paren s ++ u)
/-- `and` and `or`, and conditions. -/
inductive CondsText (n : Grammar.WNames) : Infix.Rest Where.Op Where.Leaf → Str → Prop
  | andLast {c : Build.Cond} {s : Str} : CondText n c s → CondsText n (.one .and c) (" and ".toList ++ paren s)
  | orLast {c : Build.Cond} {s : Str} : CondText n c s → CondsText n (.one .or c) (" or ".toList ++ paren s)
  | andNext {c : Build.Cond} {r : Infix.Rest Where.Op Where.Leaf} {s u : Str} : CondText n c s → CondsText n r u →
      CondsText n (.more .and c r) (" and ".toList ++ (paren s ++ u))
  | orNext {c : Build.Cond} {r : Infix.Rest Where.Op Where.Leaf} {s u : Str} : CondText n c s → CondsText n r u →
      CondsText n (.more .or c r) (" or ".toList ++ (paren s ++ u))
end

/-! ### Components -/

/-- A condition that may be left out if it is always true. -/
inductive WhereText (n : Grammar.WNames) : Build.Cond → Option Str → Prop
  | none : WhereText n (.atom (.bool true)) none
  | some {c : Build.Cond} {s : Str} : CondText n c s → WhereText n c (some s)

/-- An entry of `equations`, `sub_expressions` or `slices`. -/
structure ItemText {α : Type} (n : Grammar.WNames) (Body : α → Str → Prop) (p : Build.Cond × α) (i : MathText.RawItem) :
    Prop where
  cond : WhereText n p.1 i.cond
  body : Body p.2 i.expr

/-- Entries of `sub_expressions` or `slices`, by name. -/
def TableText {α : Type} (n : Grammar.WNames) (Body : α → Str → Prop) :
    List (String × List (Build.Cond × α)) → List (Str × List MathText.RawItem) → Prop :=
  List.Forall₂ (fun p q => q.1 = p.1.toList ∧ List.Forall₂ (ItemText n Body) p.2 q.2)

/-- A component as a math file gives it: `names` in expressions and `n` in conditions. -/
structure ComponentText (names : Str → Bool) (n : Grammar.WNames) (Body : Expand.Body Rat → Str → Prop)
    (c : Build.Component Rat) (r : MathText.Raw) : Prop where
  name : r.name = c.defn.name.toList
  foreach : r.foreach = some (c.foreach.map String.toList)
  cond : WhereText n c.top r.cond
  equations : ∃ es, r.equations = some es ∧ List.Forall₂ (ItemText n Body) c.defn.equations es
  subs : TableText n (SubText names) c.defn.subs r.subs
  slices : TableText n (SliceText names) c.defn.slices r.slices

/-- Bounds of variables: none, a number or an input. -/
inductive BoundText : BaseMath.Bound Rat → Option Str → Prop
  | none : BoundText .unbounded none
  | inf : BoundText .unbounded (some ".inf".toList)
  | minusInf : BoundText .unbounded (some "-.inf".toList)
  | num {q : Rat} {s : Str} : Number q s → BoundText (.num q) (some s)
  | input {n : String} : Name n → BoundText (.input n) (some n.toList)

/-- A variable as a math file gives it. -/
structure VariableText (n : Grammar.WNames) (v : BaseMath.Variable Rat) (r : MathText.Raw) : Prop where
  name : r.name = v.name.toList
  foreach : r.foreach = some (v.foreach.map String.toList)
  cond : WhereText n v.top r.cond
  domain : r.domain = some (if v.integer then "integer".toList else "real".toList)
  lower : BoundText v.lower r.lower
  upper : BoundText v.upper r.upper

/-- A check as a math file gives it. -/
structure CheckText (n : Grammar.WNames) (c : BaseMath.Check) (r : MathText.Raw) : Prop where
  name : r.name = c.name.toList
  cond : WhereText n c.cond r.cond
  message : r.message = some c.message.toList
  errors : r.errors = some (if c.raises then "raise".toList else "warn".toList)
  active : r.active = some c.active

end Write
end Calliope
