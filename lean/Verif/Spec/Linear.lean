import Mathlib.Algebra.Order.Field.Basic
import Verif.Spec.Assemble

/-!
# Specification: linear problems

An expression is fixed if no decision stands in it, and linear if decisions are only added, subtracted, and multiplied with
and divided by what is fixed.
-/

namespace Calliope
namespace Linear

open Grid Expr Build BaseMath Assemble

variable {V : Type}

/-- How an expression depends on decisions. -/
inductive Kind where
  | fixed | linear
  deriving DecidableEq

def Kind.join : Kind → Kind → Kind
  | .fixed, k => k
  | .linear, _ => .linear

/-- How the result of an operation depends on decisions; `none` is any other way. -/
def combine : Arith.Op → Kind → Kind → Option Kind
  | .plus, j, k | .minus, j, k => some (j.join k)
  | .times, .linear, .linear => none
  | .times, j, k => some (j.join k)
  | .div, j, .fixed => some j
  | .div, _, .linear => none
  | .pow, .fixed, .fixed => some .fixed
  | .pow, _, _ => none

mutual
/-- How an expression depends on decisions, given the arrays that do, and how sub-expressions do. -/
def kind (depends : String → Bool) (sub : String → Option Kind) : Ex V → Option Kind
  | .num _ => some .fixed
  | .comp n | .sliced n _ => some (if depends n then .linear else .fixed)
  | .sub n => sub n
  | .sign _ t | .sum t _ | .reduceCarrier t _ | .roll t _ | .groupSum t _ _ | .groupDatetime t _ _ | .sumNextN t _ _
  | .select t _ => kind depends sub t
  | .cond t c => if kind depends sub c = some .fixed then kind depends sub t else none
  | .chain t r => (kind depends sub t).bind (fun k => kindRest depends sub k r)
def kindRest (depends : String → Bool) (sub : String → Option Kind) (j : Kind) : ExRest V → Option Kind
  | .one o t => (kind depends sub t).bind (fun k => combine o j k)
  | .more o t r => ((kind depends sub t).bind (fun k => combine o j k)).bind (fun k => kindRest depends sub k r)
end

/-- How any one of these depends on decisions. -/
def joinAll : List (Option Kind) → Option Kind
  | [] => some .fixed
  | x :: l => x.bind (fun j => (joinAll l).map (fun k => j.join k))

/-- How the expressions of a sub-expression depend on decisions. -/
def subKind (depends : String → Bool) (subs : List (String × List (Cond × Ex V))) (n : String) : Option Kind :=
  joinAll (((subs.filter (fun p => p.1 = n)).flatMap Prod.snd).map (fun p => kind depends (fun _ => none) p.2))

/-- How an equation depends on decisions. -/
def bodyKind (depends : String → Bool) (sub : String → Option Kind) : Expand.Body V → Option Kind
  | .arith t => kind depends sub t
  | .cmp l _ r => joinAll [kind depends sub l, kind depends sub r]

/-- How a component depends on decisions. -/
def componentKind (depends : String → Bool) (c : Component V) : Option Kind :=
  joinAll (c.defn.equations.map (fun e => bodyKind depends (subKind depends c.defn.subs) e.2))

/-- Linear math: nothing in it depends on decisions but linearly. -/
structure LinearIn (depends : String → Bool) (M : Math V) : Prop where
  vars : ∀ v ∈ M.vars, depends v.name = true ∧ ∀ n ∈ BoundNames v.lower ++ BoundNames v.upper, depends n = false
  globals : ∀ c ∈ M.globals, componentKind depends c = some .fixed ∨
    componentKind depends c = some .linear ∧ depends c.defn.name = true
  constraints : ∀ c ∈ M.constraints, componentKind depends c ≠ none
  objectives : ∀ c ∈ M.objectives, componentKind depends c ≠ none

def LinearMath (M : Math V) : Prop := ∃ depends, LinearIn depends M

/-- Arithmetic is that of the numbers; nothing comes from missing values.  What powers are does not matter. -/
structure Plain [Field V] (E : Expr.Env V) : Prop where
  plus : ∀ a b, E.op .plus (some a) (some b) = some (a + b)
  minus : ∀ a b, E.op .minus (some a) (some b) = some (a - b)
  times : ∀ a b, E.op .times (some a) (some b) = some (a * b)
  div : ∀ a b, b ≠ 0 → E.op .div (some a) (some b) = some (a / b)
  divZero : ∀ a, E.op .div (some a) (some 0) = none
  left : ∀ o b, o ≠ .pow → E.op o none b = none
  right : ∀ o a, o ≠ .pow → E.op o a none = none
  neg : ∀ a, E.neg (some a) = some (-a)
  negNone : E.neg none = none

/-- The values of decisions, mixed: `t` parts of the first, `u` parts of the second. -/
def mixed [Field V] (t u : V) (g g' : Given V) : Given V :=
  { g with x := fun n c => t * g.x n c + u * g'.x n c }

/-- Only the values of decisions differ. -/
structure SamePlace (g g' : Given V) : Prop where
  default : g'.default = g.default
  enum : g'.enum = g.enum

/-- All missing, or the third is the mixture of the first and the second. -/
inductive Mixture [Field V] (t u : V) : Option V → Option V → Option V → Prop where
  | missing : Mixture t u none none none
  | present (a b : V) : Mixture t u (some a) (some b) (some (t * a + u * b))

/-- The same, for both sides of items of constraints. -/
inductive CellMixture [Field V] (t u : V) : Option (Cell V) → Option (Cell V) → Option (Cell V) → Prop where
  | missing : CellMixture t u none none none
  | present {a b c a' b' c' : Option V} (o : String) : Mixture t u a b c → Mixture t u a' b' c' →
      CellMixture t u (some ⟨a, o, a'⟩) (some ⟨b, o, b'⟩) (some ⟨c, o, c'⟩)

/-- Arrays with the same dimensions, item by item. -/
def Items {R : Type} (T : Option R → Option R → Option R → Prop) (a b c : Arr (Option R)) : Prop :=
  b.dims = a.dims ∧ c.dims = a.dims ∧ ∀ x, T (a.val x) (b.val x) (c.val x)

/-! ### Plans -/

/-- A constraint holds at an item. -/
def Satisfied [LE V] (k : Cell V) : Prop :=
  ∃ a b, k.lhs = some a ∧ k.rhs = some b ∧
    ((k.op = "<=" ∧ a ≤ b) ∨ (k.op = ">=" ∧ b ≤ a) ∨ (k.op = "==" ∧ a = b))

/-- The bounds of a variable hold at an item. -/
def Within [LE V] (x : V) (l : Limits V) : Prop := (∀ a, l.lower = some a → a ≤ x) ∧ (∀ b, l.upper = some b → x ≤ b)

/-- The values of decisions are a plan: the problem can be built with them, constraints hold, bounds hold, and integer
variables are integer. -/
structure Feasible [Field V] [LE V] (g : Given V) (M : Math V) (s : State V) (P : Problem V) : Prop where
  builds : assemble g M s = .ok P
  constraints : ∀ a ∈ P.constraints, ∀ c ∈ cells s.W.coords a.dims, ∀ k, a.val c = some k → Satisfied k
  bounds : ∀ before v after s', M.vars = before ++ v :: after → addAll (addVariable g) s before = .ok s' →
    ∀ b, buildVariable s'.W s'.E v = .ok b → ∀ c ∈ cells s.W.coords b.dims, ∀ l, b.val c = some l →
      Within (g.x v.name c) l ∧ (v.integer = true → ∃ z : Int, g.x v.name c = z)

/-- The value of an objective. -/
def IsObjective (P : Problem V) (i : Nat) (v : V) : Prop := ∃ a, P.objectives[i]? = some a ∧ a.val [] = some v

end Linear
end Calliope
