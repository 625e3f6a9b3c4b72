import Mathlib.Algebra.Order.Field.Basic
import Verif.Spec.Linear

/-!
# Specification: units

A number is measured in units of energy (power is energy per hour), cost and area.  Only numbers of the same unit are added
or compared; units are multiplied and divided with numbers.  Zero has every unit.
-/

namespace Calliope
namespace Units

open Grid Expr Build BaseMath Assemble

variable {V : Type}

/-- A unit: powers of the units of energy, cost and area. -/
structure Measure where
  energy : Int
  cost : Int
  area : Int
  deriving DecidableEq

namespace Measure

def one : Measure := ⟨0, 0, 0⟩
def times (m n : Measure) : Measure := ⟨m.energy + n.energy, m.cost + n.cost, m.area + n.area⟩
def over (m n : Measure) : Measure := ⟨m.energy - n.energy, m.cost - n.cost, m.area - n.area⟩

end Measure

/-- A change of units: by how much numbers of energy, cost and area are multiplied. -/
structure Change (V : Type) where
  energy : V
  cost : V
  area : V

/-- By how much a number of some unit is multiplied. -/
def Change.factor [Field V] (k : Change V) (m : Measure) : V := k.energy ^ m.energy * k.cost ^ m.cost * k.area ^ m.area

structure Change.Positive [Field V] [LT V] (k : Change V) : Prop where
  energy : 0 < k.energy
  cost : 0 < k.cost
  area : 0 < k.area

/-- The units of arrays, and what they hold under: `zero`, decisions that there are not, so that they count as zero; `absent`,
text that an input nowhere has; `off`, options that are `false`. -/
structure System where
  of : String → Measure
  zero : List String
  absent : List (String × String)
  off : List String

/-! ### Units of expressions -/

/-- The unit of an expression. -/
inductive Kind where
  | zero
  | of (m : Measure)
  deriving DecidableEq

/-- The common unit. -/
def Kind.join : Kind → Kind → Option Kind
  | .zero, k | k, .zero => some k
  | .of m, .of n => if m = n then some (.of m) else none

/-- Not changed by a change of units. -/
def Kind.plain : Kind → Bool
  | .zero => true
  | .of m => decide (m = .one)

/-- The unit of the result of an operation. -/
def combine : Arith.Op → Kind → Kind → Option Kind
  | .plus, j, k | .minus, j, k => j.join k
  | .times, .zero, _ | .times, _, .zero => some .zero
  | .times, .of m, .of n => some (.of (m.times n))
  | .div, _, .zero => none
  | .div, .zero, _ => some .zero
  | .div, .of m, .of n => some (.of (m.over n))
  | .pow, j, k => if j.plain && k.plain then some (.of .one) else none

/-- The unit of an array. -/
def System.kind (U : System) (n : String) : Kind := if U.zero.contains n then .zero else .of (U.of n)

mutual
/-- The unit of an expression, given those of sub-expressions. -/
def kind [DecidableEq V] [Zero V] (U : System) (sub : String → Option Kind) : Ex V → Option Kind
  | .num v => some (if v = 0 then .zero else .of .one)
  | .comp n | .sliced n _ => some (U.kind n)
  | .sub n => sub n
  | .sign _ t | .sum t _ | .reduceCarrier t _ | .roll t _ | .groupSum t _ _ | .groupDatetime t _ _ | .sumNextN t _ _
  | .select t _ => kind U sub t
  | .cond t c => if (kind U sub c).any Kind.plain then kind U sub t else none
  | .chain t r => (kind U sub t).bind (fun k => kindRest U sub k r)
def kindRest [DecidableEq V] [Zero V] (U : System) (sub : String → Option Kind) (j : Kind) : ExRest V → Option Kind
  | .one o t => (kind U sub t).bind (fun k => combine o j k)
  | .more o t r => ((kind U sub t).bind (fun k => combine o j k)).bind (fun k => kindRest U sub k r)
end

/-- The common unit of these. -/
def joinAll : List (Option Kind) → Option Kind
  | [] => some .zero
  | x :: l => x.bind (fun j => (joinAll l).bind (fun k => j.join k))

/-- A condition that nothing meets. -/
def System.excluded (U : System) : Cond → Bool
  | .atom (.cmp (.input p) .eq (.str t)) => U.absent.contains (p, t)
  | .atom (.cmp (.config o) .eq (.bool true)) => U.off.contains o
  | _ => false

/-- The unit of the expressions of a sub-expression. -/
def subKind [DecidableEq V] [Zero V] (U : System) (subs : List (String × List (Cond × Ex V))) (n : String) : Option Kind :=
  joinAll ((((subs.filter (fun p => p.1 = n)).flatMap Prod.snd).filter (fun p => !U.excluded p.1)).map
    (fun p => kind U (fun _ => none) p.2))

/-- The unit of an equation: its sides have the same. -/
def bodyKind [DecidableEq V] [Zero V] (U : System) (sub : String → Option Kind) : Expand.Body V → Option Kind
  | .arith t => kind U sub t
  | .cmp l _ r => joinAll [kind U sub l, kind U sub r]

/-- The units of the equations of a component. -/
def equationKinds [DecidableEq V] [Zero V] (U : System) (c : Component V) : List (Option Kind) :=
  (c.defn.equations.filter (fun e => !U.excluded e.1)).map (fun e => bodyKind U (subKind U c.defn.subs) e.2)

/-! ### Units in conditions -/

/-- The numbers compared have no unit. -/
def plainLhs (U : System) : Where.Lhs → Bool
  | .input n => decide (U.of n = .one)
  | .op _ l r => plainLhs U l && plainLhs U r
  | _ => true

/-- What a comparison says does not change with units: the numbers compared have none, or are compared to zero or infinity. -/
def plainCmp : Where.Lhs → Where.Rhs → Bool
  | .input _, .num q => decide (q = 0)
  | .input _, .inf => true
  | _, _ => false

def plainLeaf (U : System) : Where.Leaf → Bool
  | .cmp l _ r => plainLhs U l || plainCmp l r
  | _ => true

mutual
def plainCond (U : System) : Infix.Tree Where.Op Where.Leaf → Bool
  | .atom l => plainLeaf U l
  | .pre _ t => plainCond U t
  | .chain t r => plainCond U t && plainCondRest U r
def plainCondRest (U : System) : Infix.Rest Where.Op Where.Leaf → Bool
  | .one _ t => plainCond U t
  | .more _ t r => plainCond U t && plainCondRest U r
end

/-- All conditions of a component. -/
def conditions (c : Component V) : List Cond :=
  c.top :: (c.defn.equations.map Prod.fst ++ c.defn.subs.flatMap (fun p => p.2.map Prod.fst) ++
    c.defn.slices.flatMap (fun p => p.2.map Prod.fst))

/-! ### Consistent units -/

/-- The unit of a bound is that of its variable. -/
def boundOk [DecidableEq V] [Zero V] (U : System) (m : Measure) : Bound V → Bool
  | .num v => decide (v = 0) || decide (m = .one)
  | .unbounded => true
  | .input n => decide (U.kind n = .of m) || decide (U.kind n = .zero)

/-- A variable: it is not there, or its bounds are in its unit; the unit of what is counted is one. -/
def variableOk [DecidableEq V] [Zero V] (U : System) (v : Variable V) : Bool :=
  plainCond U v.top &&
    if U.zero.contains v.name then U.excluded v.top
    else boundOk U (U.of v.name) v.lower && boundOk U (U.of v.name) v.upper && (!v.integer || decide (U.of v.name = .one))

/-- A component: conditions do not depend on units, and each equation has a unit. -/
def componentOk [DecidableEq V] [Zero V] (U : System) (c : Component V) : Bool :=
  (conditions c).all (plainCond U) && (equationKinds U c).all Option.isSome

/-- A global expression has the unit of its name. -/
def globalOk [DecidableEq V] [Zero V] (U : System) (c : Component V) : Bool :=
  componentOk U c && (equationKinds U c).all (fun k => decide (k = some .zero) || decide (k = some (U.kind c.defn.name)))

/-- An objective has some unit. -/
def objectiveOk [DecidableEq V] [Zero V] (U : System) (c : Component V) : Bool :=
  componentOk U c && (joinAll (equationKinds U c)).isSome

/-- The units of math are consistent. -/
structure Consistent [DecidableEq V] [Zero V] (U : System) (M : Math V) : Prop where
  vars : ∀ v ∈ M.vars, variableOk U v = true
  globals : ∀ c ∈ M.globals, globalOk U c = true
  constraints : ∀ c ∈ M.constraints, componentOk U c = true
  objectives : ∀ c ∈ M.objectives, objectiveOk U c = true

/-! ### Changing units -/

/-- Both missing, or the second is `k` times the first. -/
inductive Scaled [Field V] (k : V) : Option V → Option V → Prop where
  | missing : Scaled k none none
  | present (a : V) : Scaled k (some a) (some (k * a))

/-- The same, for both sides of an item of a constraint, which have the same unit. -/
inductive ScaledCell [Field V] (k : Change V) : Option (Cell V) → Option (Cell V) → Prop where
  | missing : ScaledCell k none none
  | present {a b a' b' : Option V} (o : String) (m : Measure) : Scaled (k.factor m) a a' → Scaled (k.factor m) b b' →
      ScaledCell k (some ⟨a, o, b⟩) (some ⟨a', o, b'⟩)

/-- The unit of an objective. -/
def objectiveUnit [DecidableEq V] [Zero V] (U : System) (c : Component V) : Measure :=
  match joinAll (equationKinds U c) with
  | some (.of m) => m
  | _ => .one

/-- The same, or numbers of the same sign. -/
inductive SameSign : Where.Val → Where.Val → Prop where
  | same (v : Where.Val) : SameSign v v
  | number {p q : Rat} : (q = 0 ↔ p = 0) → (0 < q ↔ 0 < p) → SameSign (.num p) (.num q)

/-- An input in other units, as conditions see it. -/
structure SameSigns (i i' : Where.Input) : Prop where
  kind : i'.kind = i.kind
  dims : i'.arr.dims = i.arr.dims
  val : ∀ c, SameSign (i.arr.val c) (i'.arr.val c)
  default : SameSign i.default i'.default

/-- The same inputs in other units.  Numbers without a unit, text and everything else are the same. -/
structure Rescaled [Field V] (k : Change V) (U : System) (s s' : State V) : Prop where
  dims : s'.W.dims = s.W.dims
  coords : s'.W.coords = s.W.coords
  config : s'.W.config = s.W.config
  matrix : s'.W.matrix = s.W.matrix
  arith : s'.W.arith = s.W.arith
  result : s'.W.result = s.W.result
  number : s'.W.number = s.W.number
  sums : s'.W.sums = s.W.sums
  signs : ∀ n, SameSigns (s.W.input n) (s'.W.input n)
  plain : ∀ n, U.of n = .one → s'.W.input n = s.W.input n
  ecoords : s'.E.coords = s.E.coords
  isDim : s'.E.isDim = s.E.isDim
  period : s'.E.period = s.E.period
  op : s'.E.op = s.E.op
  neg : s'.E.neg = s.E.neg
  truthy : s'.E.truthy = s.E.truthy
  lookup : s'.E.lookup = s.E.lookup
  carrier : s'.E.carrier = s.E.carrier
  comp : ∀ n, (s.E.comp n = none ∧ s'.E.comp n = none) ∨ ∃ c c', s.E.comp n = some c ∧ s'.E.comp n = some c' ∧
    c'.arr.dims = c.arr.dims ∧
    ∀ x, Scaled (k.factor (U.of n)) ((c.arr.val x).or c.default) ((c'.arr.val x).or c'.default)

/-- The same decisions in other units. -/
structure Regiven [Field V] (k : Change V) (U : System) (g g' : Given V) : Prop where
  x : ∀ n c, g'.x n c = k.factor (U.of n) * g.x n c
  default : ∀ n, g'.default n = (g.default n).map (fun v => k.factor (U.of n) * v)
  enum : g'.enum = g.enum

/-- What the system of units assumes of the model. -/
structure Applies [Zero V] (U : System) (g : Given V) (s : State V) : Prop where
  zero : ∀ n ∈ U.zero, s.E.comp n = none ∧ (g.default n = none ∨ g.default n = some 0)
  absent : ∀ p ∈ U.absent, ∀ c, (s.W.input p.1).arr.val c ≠ .str p.2 ∧
    ((s.W.input p.1).arr.val c = .nan → (s.W.input p.1).default ≠ .str p.2)
  off : ∀ o ∈ U.off, s.W.config o = some (.bool false)

/-- The values of decisions are a plan, and no plan is better by objective `i`, which is minimised. -/
def Cheapest [Field V] [LE V] (g : Given V) (M : Math V) (s : State V) (i : Nat) : Prop :=
  ∃ P v, Linear.Feasible g M s P ∧ Linear.IsObjective P i v ∧
    ∀ h Q w, Linear.SamePlace g h → Linear.Feasible h M s Q → Linear.IsObjective Q i w → v ≤ w

end Units
end Calliope
