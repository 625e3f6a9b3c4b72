import Verif.Model.Assemble

/-!
# Specification: what a component depends on

`Names` of an expression, of a condition, of a component are the arrays that stand in its strings.  `Affected` are the arrays
that a change can reach: those that change, and components that name an array that a change can reach.
-/

namespace Calliope
namespace Assemble

open Grid Expr Build BaseMath Infix

variable {V : Type}

mutual
/-- The arrays that stand in an expression. -/
def Names : Ex V → List String
  | .num _ | .sub _ => []
  | .comp n | .sliced n _ => [n]
  | .sign _ t | .sum t _ | .roll t _ | .groupDatetime t _ _ | .sumNextN t _ _ => Names t
  | .reduceCarrier t flow => ("carrier_" ++ flow) :: Names t
  | .groupSum t g _ => g :: Names t
  | .select t ls => ls.map Prod.snd ++ Names t
  | .cond t c => Names t ++ Names c
  | .chain t r => Names t ++ NamesRest r
def NamesRest : ExRest V → List String
  | .one _ t => Names t
  | .more _ t r => Names t ++ NamesRest r
end

/-- The arrays that stand in an equation. -/
def BodyNames : Expand.Body V → List String
  | .arith t => Names t
  | .cmp l _ r => Names l ++ Names r

/-- The arrays that stand in a slice. -/
def SliceNames : SliceDef → List String
  | .lookup n _ => [n]
  | .label _ | .valAt _ _ => []

def LhsNames : Where.Lhs → List String
  | .input n | .result n | .total n _ => [n]
  | .op _ l r => LhsNames l ++ LhsNames r
  | .num _ | .dim _ | .config _ | .valAt _ _ => []

def LeafNames : Where.Leaf → List String
  | .input n | .result n | .anyInput n _ | .anyResult n _ => [n]
  | .cmp l _ _ => LhsNames l
  | .bool _ | .isIn _ _ | .defined _ _ _ => []

mutual
/-- The arrays that stand in a condition. -/
def CondNames : Tree Where.Op Where.Leaf → List String
  | .atom l => LeafNames l
  | .pre _ t => CondNames t
  | .chain t r => CondNames t ++ CondRestNames r
def CondRestNames : Rest Where.Op Where.Leaf → List String
  | .one _ t => CondNames t
  | .more _ t r => CondNames t ++ CondRestNames r
end

/-- The arrays that stand in the strings of a component. -/
def ComponentNames (c : Component V) : List String :=
  CondNames c.top ++ c.defn.equations.flatMap (fun p => CondNames p.1 ++ BodyNames p.2) ++
    c.defn.subs.flatMap (fun p => p.2.flatMap (fun q => CondNames q.1 ++ Names q.2)) ++
    c.defn.slices.flatMap (fun p => p.2.flatMap (fun q => CondNames q.1 ++ SliceNames q.2))

def BoundNames : Bound V → List String
  | .input n => [n]
  | .num _ | .unbounded => []

/-- The arrays that stand in the definition of a variable. -/
def VariableNames (v : Variable V) : List String :=
  CondNames v.top ++ BoundNames v.lower ++ BoundNames v.upper

/-- The arrays that a change of some arrays can reach. -/
inductive Affected (M : Math V) (changed : String → Prop) : String → Prop where
  | start {n : String} : changed n → Affected M changed n
  | byVariable {v : Variable V} {n : String} :
      v ∈ M.vars → n ∈ VariableNames v → Affected M changed n → Affected M changed v.name
  | byGlobal {c : Component V} {n : String} :
      c ∈ M.globals → n ∈ ComponentNames c → Affected M changed n → Affected M changed c.defn.name

/-- Two states differ in some arrays only.  The dimensions, their labels, the technologies at nodes with their carriers and
the configuration are the same. -/
structure SameBut (changed : String → Prop) (s s' : State V) : Prop where
  dims : s.W.dims = s'.W.dims
  coords : s.W.coords = s'.W.coords
  config : s.W.config = s'.W.config
  matrix : s.W.matrix = s'.W.matrix
  arith : s.W.arith = s'.W.arith
  input : ∀ n, ¬changed n → s.W.input n = s'.W.input n
  result : ∀ n, ¬changed n → s.W.result n = s'.W.result n
  number : ∀ n, ¬changed n → s.W.number n = s'.W.number n
  sums : ∀ n, ¬changed n → s.W.sums n = s'.W.sums n
  ecoords : s.E.coords = s'.E.coords
  isDim : s.E.isDim = s'.E.isDim
  period : s.E.period = s'.E.period
  op : s.E.op = s'.E.op
  neg : s.E.neg = s'.E.neg
  truthy : s.E.truthy = s'.E.truthy
  comp : ∀ n, ¬changed n → s.E.comp n = s'.E.comp n
  lookup : ∀ n, ¬changed n → s.E.lookup n = s'.E.lookup n
  carrier : ∀ f, ¬changed ("carrier_" ++ f) → s.E.carrier f = s'.E.carrier f

/-- What problems are built with differs in the values of some variables only. -/
structure SameGiven (changed : String → Prop) (g g' : Given V) : Prop where
  x : ∀ n, ¬changed n → g.x n = g'.x n
  default : ∀ n, ¬changed n → g.default n = g'.default n
  enum : g.enum = g'.enum

end Assemble
end Calliope
