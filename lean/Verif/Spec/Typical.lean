import Mathlib.Algebra.BigOperators.Group.List.Basic
import Verif.Spec.Rename
import Verif.Spec.Linear

/-!
# Specification: typical time steps

Instead of all time steps a model may hold a few typical ones, each with the sum of the weights of the steps it stands for.
In all else a step is like the typical step that stands for it.
-/

namespace Calliope
namespace Typical

open Grid Expr Build BaseMath Assemble Infix
open Rename (Renaming Same Retold condOk)

variable {V : Type}

/-- The typical step that stands for each step, and what is left out of the comparison. -/
structure Choice where
  /-- the typical step that stands for a step -/
  of : Label → Label
  /-- arrays in proportion to the weight of a step -/
  scaled : List String
  /-- inputs about which nothing is said -/
  odd : List String
  /-- conditions that are true nowhere -/
  never : List Where.Leaf
  /-- variables and global expressions without items -/
  gone : List String

/-- Steps go by the name of their typical step. -/
def Choice.names (T : Choice) : Renaming where
  of d l := if d = "timesteps" then T.of l else l
  free d := d = "timesteps"
  held := []
  odd := T.odd

/-- A model of typical steps, `s'`, of the model `s`; `w` and `w'` are the weights of steps. -/
structure Stands [Field V] (T : Choice) (w w' : Label → V) (s s' : State V) : Prop where
  kept : ∀ d, d ≠ "timesteps" → s'.W.coords d = s.W.coords d
  steps : ∀ l', l' ∈ s'.W.coords "timesteps" ↔ ∃ l ∈ s.W.coords "timesteps", T.of l = l'
  once : (s'.W.coords "timesteps").Nodup
  weight : ∀ l' ∈ s'.W.coords "timesteps",
    w' l' = (((s.W.coords "timesteps").filter (fun l => T.of l = l')).map w).sum
  ecoords : s.E.coords = s.W.coords ∧ s'.E.coords = s'.W.coords
  dims : s'.W.dims = s.W.dims
  config : s'.W.config = s.W.config
  arith : s'.W.arith = s.W.arith
  matrix : Same T.names s.W.coords s.W.matrix s'.W.matrix
  kind : ∀ n, n ∉ T.odd → (s'.W.input n).kind = (s.W.input n).kind
  default : ∀ n, n ∉ T.odd → (s'.W.input n).default = (s.W.input n).default
  input : ∀ n, n ∉ T.odd → Same T.names s.W.coords (s.W.input n).arr (s'.W.input n).arr
  result : ∀ n, Option.Rel (Same T.names s.W.coords) (s.W.result n) (s'.W.result n)
  number : ∀ n, Option.Rel (Same T.names s.W.coords) (s.W.number n) (s'.W.number n)
  sums : ∀ n over, Option.Rel (Same T.names s.W.coords) (s.W.sums n over) (s'.W.sums n over)
  isDim : s'.E.isDim = s.E.isDim
  op : s'.E.op = s.E.op
  neg : s'.E.neg = s.E.neg
  truthy : s'.E.truthy = s.E.truthy
  numbers : Linear.Plain s.E
  carrier : ∀ n, Option.Rel (fun a a' => Same T.names s.W.coords a a' ∧ a.dims.Nodup) (s.E.carrier n) (s'.E.carrier n)
  comp : ∀ n, n ∉ T.scaled →
    Option.Rel (fun c c' => c'.default = c.default ∧ Same T.names s.W.coords c.arr c'.arr ∧ c.arr.dims.Nodup)
      (s.E.comp n) (s'.E.comp n)
  weights : ∃ c c', s.E.comp "timestep_weights" = some c ∧ s'.E.comp "timestep_weights" = some c' ∧
    c.arr.dims = ["timesteps"] ∧ c'.arr.dims = ["timesteps"] ∧
    (∀ l ∈ s.W.coords "timesteps", c.arr.val [l] = some (w l)) ∧
    (∀ l ∈ s'.W.coords "timesteps", c'.arr.val [l] = some (w' l))
  others : ∀ n ∈ T.scaled, n ≠ "timestep_weights" → s.E.comp n = none ∧ s'.E.comp n = none
  never : ∀ l ∈ T.never, (∀ a, Where.evalLeaf s.W l = .ok a → ∀ ρ, (∀ d ∈ a.dims, ρ d ∈ s.W.coords d) → a.at ρ = false) ∧
    ∀ a, Where.evalLeaf s'.W l = .ok a → ∀ ρ, (∀ d ∈ a.dims, ρ d ∈ s'.W.coords d) → a.at ρ = false
  gone : ∀ n ∈ T.gone, (∀ a, s.W.result n = some a → ∀ ρ, a.at ρ = false) ∧ ∀ a, s'.W.result n = some a → ∀ ρ, a.at ρ = false

/-! ### Math of single steps -/

/-- How an expression depends on the weight of a step. -/
inductive Kind where
  /-- Not at all. -/
  | plain
  /-- In proportion to it. -/
  | scaled
  deriving DecidableEq

/-- How the result of an operation depends on the weight of a step; `none` is any other way. -/
def combine : Arith.Op → Kind → Kind → Option Kind
  | .plus, j, k | .minus, j, k => if j = k then some j else none
  | .times, .plain, k => some k
  | .times, .scaled, .plain => some .scaled
  | .times, .scaled, .scaled => none
  | .div, j, .plain => some j
  | .div, _, .scaled => none
  | .pow, .plain, .plain => some .plain
  | .pow, _, _ => none

/-- Sums over steps are only sums of what is in proportion to their weights. -/
def sumKind (over : List String) : Kind → Option Kind
  | .plain => if over.contains "timesteps" then none else some .plain
  | .scaled => if over.contains "timesteps" then some .plain else some .scaled

mutual
/-- How an expression depends on the weight of a step, given the arrays that do, and how sub-expressions do; `none` also if it
depends on other steps. -/
def kind (T : Choice) (sub : String → Option Kind) : Ex V → Option Kind
  | .num _ => some .plain
  | .comp n => some (if T.scaled.contains n then .scaled else .plain)
  | .sub n => sub n
  | .sign _ t | .reduceCarrier t _ => kind T sub t
  | .sum t over => (kind T sub t).bind (sumKind over)
  | .cond t c => if kind T sub c = some .plain then kind T sub t else none
  | .chain t r => (kind T sub t).bind (fun k => kindRest T sub k r)
  | .sliced _ _ | .roll _ _ | .groupSum _ _ _ | .groupDatetime _ _ _ | .sumNextN _ _ _ | .select _ _ => none
def kindRest (T : Choice) (sub : String → Option Kind) (j : Kind) : ExRest V → Option Kind
  | .one o t => (kind T sub t).bind (fun k => combine o j k)
  | .more o t r => ((kind T sub t).bind (fun k => combine o j k)).bind (fun k => kindRest T sub k r)
end

/-- All are of one kind. -/
def allOf : List (Option Kind) → Option Kind
  | [] => none
  | x :: l => if l.all (fun y => y = x) then x else none

/-- How the expressions of a sub-expression depend on the weight of a step. -/
def subKind (T : Choice) (subs : List (String × List (Cond × Ex V))) (n : String) : Option Kind :=
  allOf (((subs.filter (fun p => p.1 = n)).flatMap Prod.snd).map (fun p => kind T (fun _ => none) p.2))

/-- How an equation depends on the weight of a step: constraints do not. -/
def bodyKind (T : Choice) (sub : String → Option Kind) : Expand.Body V → Option Kind
  | .arith t => kind T sub t
  | .cmp l _ r => if kind T sub l = some .plain ∧ kind T sub r = some .plain then some .plain else none

/-- The conditions and equations of a component are those of single steps. -/
def single (T : Choice) (k : Kind) (c : Component V) : Bool :=
  (Units.conditions c).all (condOk T.names) &&
    c.defn.equations.all (fun e => bodyKind T (subKind T c.defn.subs) e.2 = some k)

/-! ### Components without items -/

mutual
/-- A condition that is true nowhere. -/
def nowhere (T : Choice) : Tree Where.Op Where.Leaf → Bool
  | .atom (.result n) => T.gone.contains n
  | .atom (.anyResult _ _) => false
  | .atom l => T.never.contains l
  | .pre _ _ => false
  | .chain t r => nowhereRest T (nowhere T t) r
def nowhereRest (T : Choice) (b : Bool) : Rest Where.Op Where.Leaf → Bool
  | .one o t => nowhereOp o b (nowhere T t)
  | .more o t r => nowhereRest T (nowhereOp o b (nowhere T t)) r
def nowhereOp : Where.Op → Bool → Bool → Bool
  | .and, a, b => a || b
  | .or, a, b => a && b
  | .not, _, _ => false
end

/-- A condition whose evaluation fails for typical steps exactly if it fails for all steps: also one about the first or last
step. -/
def leafAlike (T : Choice) : Where.Leaf → Bool
  | .cmp (.dim d) .eq (.valAt d' i) => Rename.leafOk T.names (.cmp (.dim d) .eq (.valAt d' i)) ||
      (d = "timesteps" && d' = "timesteps" && (i = 0 || i = -1))
  | l => Rename.leafOk T.names l

mutual
def alike (T : Choice) : Tree Where.Op Where.Leaf → Bool
  | .atom l => leafAlike T l
  | .pre _ t => alike T t
  | .chain t r => alike T t && alikeRest T r
def alikeRest (T : Choice) : Rest Where.Op Where.Leaf → Bool
  | .one _ t => alike T t
  | .more _ t r => alike T t && alikeRest T r
end

/-- A component without items. -/
def empty (T : Choice) (t : Tree Where.Op Where.Leaf) : Bool := nowhere T t && alike T t

/-- A component whose items are those of single steps, or which has none. -/
def componentOk (T : Choice) (k : Kind) (c : Component V) : Bool :=
  decide c.foreach.Nodup && (single T k c || empty T c.top)

/-- The way an array of this name depends on weights. -/
def kindOf (T : Choice) (n : String) : Kind := if T.scaled.contains n then .scaled else .plain

def variableOk (T : Choice) (v : Variable V) : Bool :=
  decide v.foreach.Nodup && kindOf T v.name = .plain && (BoundNames v.lower ++ BoundNames v.upper).all (fun n => kindOf T n = .plain) &&
    ((condOk T.names v.top && !T.gone.contains v.name) || empty T v.top)

/-- Math of single steps. -/
structure Single (T : Choice) (M : Math V) : Prop where
  vars : ∀ v ∈ M.vars, variableOk T v = true
  globals : ∀ c ∈ M.globals, componentOk T (kindOf T c.defn.name) c = true ∧
    (c.defn.name ∈ T.gone → empty T c.top = true)
  constraints : ∀ c ∈ M.constraints, componentOk T .plain c = true
  objectives : ∀ c ∈ M.objectives, componentOk T .plain c = true ∧ c.foreach = []

/-- Missing costs are zero. -/
def NoOther [Field V] (T : Choice) (g : Given V) : Prop := ∀ n ∈ T.scaled, g.default n = none ∨ g.default n = some 0

end Typical
end Calliope
