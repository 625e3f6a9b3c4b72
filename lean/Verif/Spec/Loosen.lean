import Mathlib.Algebra.Order.Field.Basic
import Verif.Spec.Measure

/-!
# Specification: looser limits and lower prices

Some inputs are raised, some are lowered, the others stay.  Which way an expression moves with them follows from those of its
parts: a sum of what does not fall does not fall, nor does its product with a fixed number that is not negative.
-/

namespace Calliope
namespace Loosen

open Grid Expr Build BaseMath Assemble

variable {V : Type}

/-- How a number moves. -/
inductive Way where
  /-- It is one. -/
  | one
  /-- It stays, and is at least one. -/
  | big
  /-- It stays, and is not negative. -/
  | nonneg
  /-- It stays, and is not positive. -/
  | nonpos
  /-- It stays. -/
  | same
  /-- It does not fall. -/
  | up
  /-- It does not rise. -/
  | down
  deriving DecidableEq

namespace Way

/-- It stays. -/
def fixed : Way → Bool
  | .up | .down => false
  | _ => true

/-- It is not negative. -/
def positive : Way → Bool
  | .one | .big | .nonneg => true
  | _ => false

/-- It is at least one. -/
def atLeastOne : Way → Bool
  | .one | .big => true
  | _ => false

/-- The first way is one of the second kind. -/
def fits : Way → Way → Bool
  | i, .one => decide (i = .one)
  | i, .big => i.atLeastOne
  | i, .nonneg => i.positive
  | i, .nonpos => decide (i = .nonpos)
  | i, .same => i.fixed
  | i, .up => i.fixed || decide (i = .up)
  | i, .down => i.fixed || decide (i = .down)

/-- A way that covers both. -/
def sup (i j : Way) : Option Way :=
  if i.fits j then some j
  else if j.fits i then some i
  else if i.fixed && j.fixed then some .same
  else none

/-- The way of a sum of such numbers. -/
def summed : Way → Way
  | .one | .big => .nonneg
  | i => i

/-- The way of the negative. -/
def flip : Way → Way
  | .one | .big | .nonneg => .nonpos
  | .nonpos => .nonneg
  | .same => .same
  | .up => .down
  | .down => .up

end Way

/-- The way of a sum. -/
def plus (i j : Way) : Option Way :=
  if (i.atLeastOne && j.positive) || (i.positive && j.atLeastOne) then some .big else i.summed.sup j.summed

/-- The way of the result of an operation. -/
def combine : Arith.Op → Way → Way → Option Way
  | .plus, i, j => plus i j
  | .minus, i, j => if i.atLeastOne && decide (j = .one) then some .nonneg else plus i j.flip
  | .times, i, j =>
    if i.atLeastOne && j.atLeastOne then some .big
    else if i.positive then some j.summed
    else if j.positive then some i.summed
    else if i = .nonpos then some j.flip
    else if j = .nonpos then some i.flip
    else if i.fixed && j.fixed then some .same
    else none
  | .div, i, j =>
    if j.positive then some i.summed
    else if j = .nonpos then some i.flip
    else if i.fixed && j.fixed then some .same
    else none
  | .pow, i, j =>
    if i.atLeastOne && j.positive then some .big
    else if i.fixed && j.fixed then some .same
    else none

/-- The way of a number. -/
def numberWay [Field V] [LinearOrder V] (v : V) : Way :=
  if v = 1 then .one else if 1 ≤ v then .big else if 0 ≤ v then .nonneg else .nonpos

mutual
/-- The way of an expression, given those of arrays and sub-expressions. -/
def way [Field V] [LinearOrder V] (D : String → Way) (sub : String → Option Way) : Ex V → Option Way
  | .num v => some (numberWay v)
  | .comp n | .sliced n _ => some (D n)
  | .sub n => sub n
  | .sign o t => (way D sub t).map (fun j => if o = .minus then j.flip else j)
  | .sum t _ | .reduceCarrier t _ | .groupSum t _ _ | .groupDatetime t _ _ | .sumNextN t _ _ =>
    (way D sub t).map Way.summed
  | .roll t _ | .select t _ => way D sub t
  | .cond t c => if (way D sub c).any Way.fixed then way D sub t else none
  | .chain t r => (way D sub t).bind (fun k => wayRest D sub k r)
def wayRest [Field V] [LinearOrder V] (D : String → Way) (sub : String → Option Way) (j : Way) :
    ExRest V → Option Way
  | .one o t => (way D sub t).bind (fun k => combine o j k)
  | .more o t r => ((way D sub t).bind (fun k => combine o j k)).bind (fun k => wayRest D sub k r)
end

/-- A way that covers all. -/
def supAll : List (Option Way) → Option Way
  | [] => some .one
  | x :: l => x.bind (fun j => (supAll l).bind (fun k => j.sup k))

/-- The way of the expressions of a sub-expression. -/
def subWay [Field V] [LinearOrder V] (D : String → Way) (subs : List (String × List (Cond × Ex V))) (n : String) :
    Option Way :=
  supAll (((subs.filter (fun p => p.1 = n)).flatMap Prod.snd).map (fun p => way D (fun _ => none) p.2))

/-- The sides of a constraint move apart, so that it holds after if it held before. -/
def apart : String → Option Way → Option Way → Bool
  | o, some i, some j =>
    if o = "<=" then i.fits .down && j.fits .up
    else if o = ">=" then i.fits .up && j.fits .down
    else i.fixed && j.fixed
  | _, _, _ => false

def constraintOk [Field V] [LinearOrder V] (D : String → Way) (sub : String → Option Way) : Expand.Body V → Bool
  | .arith _ => true
  | .cmp l o r => apart o (way D sub l) (way D sub r)

def expressionOk [Field V] [LinearOrder V] (D : String → Way) (sub : String → Option Way) (goal : Way) :
    Expand.Body V → Bool
  | .arith t => (way D sub t).any (fun w => w.fits goal)
  | .cmp _ _ _ => true

/-- Which inputs move. -/
def moving (D : String → Way) : Units.System := ⟨fun n => if (D n).fixed then .one else ⟨1, 0, 0⟩, [], [], []⟩

/-- Conditions compare what moves only to zero or infinity. -/
def steady (D : String → Way) (c : Component V) : Bool := (Units.conditions c).all (Units.plainCond (moving D))

/-- Bounds move apart. -/
def boundOk (D : String → Way) (goal : Way) : Bound V → Bool
  | .input n => (D n).fits goal
  | _ => true

def variableOk (D : String → Way) (v : Variable V) : Bool :=
  Units.plainCond (moving D) v.top && (D v.name).fixed && boundOk D .down v.lower && boundOk D .up v.upper

/-- Math in which limits move apart: no constraint gets tighter, and no objective rises. -/
structure Loosens [Field V] [LinearOrder V] (D : String → Way) (M : Math V) : Prop where
  vars : ∀ v ∈ M.vars, variableOk D v = true
  globals : ∀ c ∈ M.globals, steady D c = true ∧
    ∀ e ∈ c.defn.equations, expressionOk D (subWay D c.defn.subs) (D c.defn.name) e.2 = true
  constraints : ∀ c ∈ M.constraints, steady D c = true ∧
    ∀ e ∈ c.defn.equations, constraintOk D (subWay D c.defn.subs) e.2 = true
  objectives : ∀ c ∈ M.objectives, steady D c = true ∧
    ∀ e ∈ c.defn.equations, expressionOk D (subWay D c.defn.subs) .down e.2 = true

/-! ### Moving inputs -/

/-- The second number is where the first moved this way. -/
def Goes [Field V] [LinearOrder V] : Way → V → V → Prop
  | .one, a, b => b = a ∧ a = 1
  | .big, a, b => b = a ∧ 1 ≤ a
  | .nonneg, a, b => b = a ∧ 0 ≤ a
  | .nonpos, a, b => b = a ∧ a ≤ 0
  | .same, a, b => b = a
  | .up, a, b => a ≤ b
  | .down, a, b => b ≤ a

/-- Both missing, or moved this way. -/
inductive Moved [Field V] [LinearOrder V] (w : Way) : Option V → Option V → Prop where
  | missing : Moved w none none
  | present {a b : V} : Goes w a b → Moved w (some a) (some b)

/-- A power of a number of at least one, with an exponent that is not negative, is at least one. -/
def Grows [Field V] [LinearOrder V] (E : Expr.Env V) : Prop :=
  ∀ x y c, (∀ a, x = some a → 1 ≤ a) → (∀ b, y = some b → 0 ≤ b) → E.op .pow x y = some c → 1 ≤ c

/-- The same model but for what moves.  What moves keeps its sign, and stays finite. -/
structure Looser [Field V] [LinearOrder V] (D : String → Way) (s s' : State V) : Prop where
  dims : s'.W.dims = s.W.dims
  coords : s'.W.coords = s.W.coords
  config : s'.W.config = s.W.config
  matrix : s'.W.matrix = s.W.matrix
  arith : s'.W.arith = s.W.arith
  result : s'.W.result = s.W.result
  number : s'.W.number = s.W.number
  sums : s'.W.sums = s.W.sums
  signs : ∀ n, Units.SameSigns (s.W.input n) (s'.W.input n)
  plain : ∀ n, (D n).fixed = true → s'.W.input n = s.W.input n
  ecoords : s'.E.coords = s.E.coords
  isDim : s'.E.isDim = s.E.isDim
  period : s'.E.period = s.E.period
  op : s'.E.op = s.E.op
  neg : s'.E.neg = s.E.neg
  truthy : s'.E.truthy = s.E.truthy
  lookup : s'.E.lookup = s.E.lookup
  carrier : s'.E.carrier = s.E.carrier
  comp : ∀ n, (s.E.comp n = none ∧ s'.E.comp n = none) ∨ ∃ c c', s.E.comp n = some c ∧ s'.E.comp n = some c' ∧
    c'.arr.dims = c.arr.dims ∧ ∀ x, Moved (D n) ((c.arr.val x).or c.default) ((c'.arr.val x).or c'.default)

/-- Decisions and defaults have their signs. -/
structure Signed [Field V] [LinearOrder V] (D : String → Way) (g : Given V) : Prop where
  x : ∀ n c, Goes (D n) (g.x n c) (g.x n c)
  default : ∀ n d, g.default n = some d → Goes (D n) d d

end Loosen
end Calliope
