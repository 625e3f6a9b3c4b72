import Verif.Spec.Measure
import Verif.Spec.Expr

/-!
# Specification: names and order

The labels of some dimensions, such as the names of nodes and technologies, get other names and another order.  The other
dimensions, such as time steps, stay as they are.
-/

namespace Calliope
namespace Rename

open Grid Expr Build BaseMath Assemble

variable {V : Type}

/-- New names. -/
structure Renaming where
  /-- the new name of a label of a dimension -/
  of : String → Label → Label
  /-- dimensions whose labels may get other names and another order -/
  free : String → Bool
  /-- inputs that hold such names -/
  held : List String
  /-- inputs about which nothing is said -/
  odd : List String
  /-- dimensions whose labels get other names, but stay in order -/
  dated : String → Bool := fun _ => false
  /-- lookups that hold labels of such a dimension -/
  dates : String → Option String := fun _ => none
  /-- slices that stand for a label of such a dimension, in one component -/
  marks : String → Option String := fun _ => none

/-- An item under its new names. -/
def Renaming.move (R : Renaming) (ρ : Point) : Point := fun d => R.of d (ρ d)

/-- The labels of dimensions, renamed and in another order. -/
structure Relabelled (R : Renaming) (coords coords' : String → List Label) : Prop where
  kept : ∀ d, R.free d = false → coords' d = coords d ∧ ∀ l, R.of d l = l
  moved : ∀ d, (coords' d).Perm ((coords d).map (R.of d))
  dated : ∀ d, R.dated d = true → coords' d = (coords d).map (R.of d) ∧ ∀ l l', R.of d l = R.of d l' → l = l'

/-- The second array holds at every item under its new names what the first holds. -/
def Same {α : Type} (R : Renaming) (coords : String → List Label) (a a' : Arr α) : Prop :=
  a'.dims = a.dims ∧ ∀ ρ, (∀ d ∈ a.dims, ρ d ∈ coords d) → a'.at (R.move ρ) = a.at ρ

/-- The same value, or a name and another name. -/
inductive NameOrSame : Where.Val → Where.Val → Prop where
  | same (v : Where.Val) : NameOrSame v v
  | name (a b : String) : NameOrSame (.str a) (.str b)

/-- The same model under new names. -/
structure Renamed (R : Renaming) (s s' : State V) : Prop where
  labels : Relabelled R s.W.coords s'.W.coords
  ecoords : s.E.coords = s.W.coords ∧ s'.E.coords = s'.W.coords
  dims : s'.W.dims = s.W.dims
  config : s'.W.config = s.W.config
  arith : s'.W.arith = s.W.arith
  matrix : Same R s.W.coords s.W.matrix s'.W.matrix
  kind : ∀ n, n ∉ R.odd → (s'.W.input n).kind = (s.W.input n).kind
  default : ∀ n, n ∉ R.odd → (s'.W.input n).default = (s.W.input n).default
  input : ∀ n, n ∉ R.odd → n ∉ R.held → Same R s.W.coords (s.W.input n).arr (s'.W.input n).arr
  held : ∀ n, n ∉ R.odd → (s'.W.input n).arr.dims = (s.W.input n).arr.dims ∧
    ∀ ρ, (∀ d ∈ (s.W.input n).arr.dims, ρ d ∈ s.W.coords d) →
      NameOrSame ((s.W.input n).arr.at ρ) ((s'.W.input n).arr.at (R.move ρ))
  result : ∀ n, Option.Rel (Same R s.W.coords) (s.W.result n) (s'.W.result n)
  number : ∀ n, Option.Rel (Same R s.W.coords) (s.W.number n) (s'.W.number n)
  sums : ∀ n over, Option.Rel (Same R s.W.coords) (s.W.sums n over) (s'.W.sums n over)
  isDim : s'.E.isDim = s.E.isDim
  period : s'.E.period = s.E.period
  op : s'.E.op = s.E.op
  neg : s'.E.neg = s.E.neg
  truthy : s'.E.truthy = s.E.truthy
  lookup : ∀ n, n ∉ R.held →
    Option.Rel (fun a a' => a.dims.Nodup ∧ Same R s.W.coords a a') (s.E.lookup n) (s'.E.lookup n)
  dates : ∀ n d, R.dates n = some d → Option.Rel (fun a a' => a.dims.Nodup ∧
    Same R s.W.coords (map (Option.map (R.of d)) a) a') (s.E.lookup n) (s'.E.lookup n)
  carrier : ∀ n, Option.Rel (Same R s.W.coords) (s.E.carrier n) (s'.E.carrier n)
  comp : ∀ n, Option.Rel (fun c c' => c'.default = c.default ∧ Same R s.W.coords c.arr c'.arr) (s.E.comp n) (s'.E.comp n)

/-- The same decisions under new names. -/
structure Retold (R : Renaming) (coords : String → List Label) (M : Math V) (g g' : Given V) : Prop where
  x : ∀ v ∈ M.vars, ∀ ρ : Point, (∀ d ∈ v.foreach, ρ d ∈ coords d) →
    g'.x v.name (v.foreach.map (R.move ρ)) = g.x v.name (v.foreach.map ρ)
  default : g'.default = g.default
  enum : g'.enum = g.enum

/-- The limits of variables are inputs, given for dimensions of the variable. -/
def Limited (M : Math V) (s : State V) : Prop :=
  ∀ v ∈ M.vars, ∀ n ∈ BoundNames v.lower ++ BoundNames v.upper, (∀ u ∈ M.vars, u.name ≠ n) ∧
    ∀ c, s.E.comp n = some c → ∀ d ∈ c.arr.dims, d ∈ v.foreach

/-! ### Math without names -/

/-- A definition of a slice that does not depend on names or order of free dimensions. -/
def sliceOk (R : Renaming) : SliceDef → Bool
  | .label _ => true
  | .valAt d _ => !R.free d
  | .lookup n shifts => !R.held.contains n && shifts.all (fun p => !R.free p.1)

/-- The dimension of which a slice stands for a label, if its labels get other names in the same order. -/
def sliceDim (R : Renaming) : SliceDef → Option String
  | .label _ => none
  | .valAt d _ => if R.dated d then some d else none
  | .lookup n _ => R.dates n

/-- The same of a slice by its name. -/
def sliceFits (R : Renaming) (n : String) (s : SliceDef) : Bool :=
  match R.marks n with
  | none => sliceOk R s
  | some e => R.dated e && match s with
    | .label _ => false
    | .valAt d _ => decide (d = e)
    | .lookup m shifts => R.dates m == some e && shifts.all (fun p => !R.free p.1 || R.dated p.1)

/-- A slice of a dimension that stays as it is, or by its first, second, ... label. -/
def slicerOk (R : Renaming) : String × Slicer → Bool
  | (d, .label _) => !R.free d
  | (d, .ref n) => match R.marks n with
    | none => !R.free d
    | some e => decide (d = e) && R.dated d

mutual
/-- An expression that does not depend on names or order of free dimensions. -/
def exOk (R : Renaming) : Ex V → Bool
  | .num _ | .comp _ | .sub _ => true
  | .sliced _ ss => ss.all (slicerOk R)
  | .sign _ t | .sum t _ | .reduceCarrier t _ => exOk R t
  | .roll t shifts => exOk R t && shifts.all (fun p => !R.free p.1 || R.dated p.1)
  | .groupSum t n d => exOk R t && !R.held.contains n && !R.free d
  | .groupDatetime t d e => exOk R t && !R.free d && !R.free e
  | .sumNextN t d _ => exOk R t && !R.free d
  | .select t ls => exOk R t && ls.all (fun p => (!R.free p.1 && !R.held.contains p.2) ||
      (R.dated p.1 && R.dates p.2 == some p.1))
  | .cond t c => exOk R t && exOk R c
  | .chain t r => exOk R t && restOk R r
def restOk (R : Renaming) : ExRest V → Bool
  | .one _ t => exOk R t
  | .more _ t r => exOk R t && restOk R r
end

def bodyOk (R : Renaming) : Expand.Body V → Bool
  | .arith t => exOk R t
  | .cmp l _ r => exOk R l && exOk R r

def lhsOk (R : Renaming) : Where.Lhs → Bool
  | .dim d | .valAt d _ => !R.free d
  | .input n => !R.held.contains n && !R.odd.contains n
  | .op _ l r => lhsOk R l && lhsOk R r
  | _ => true

def rhsOk (R : Renaming) : Where.Rhs → Bool
  | .valAt d _ => !R.free d
  | _ => true

/-- Whether it is the first, second, ... label of a dimension that keeps its order. -/
def dateOk (R : Renaming) : Where.Lhs → Where.CmpOp → Where.Rhs → Bool
  | .dim d, .eq, .valAt e _ => decide (d = e) && R.dated d
  | _, _, _ => false

def leafOk (R : Renaming) : Where.Leaf → Bool
  | .cmp l o r => (lhsOk R l && rhsOk R r) || dateOk R l o r
  | .isIn _ d => !R.free d
  | .input n | .anyInput n _ => !R.odd.contains n
  | .defined sel _ _ => sel.all (fun p => !R.free p.1)
  | _ => true

mutual
/-- A condition that does not depend on names or order of free dimensions. -/
def condOk (R : Renaming) : Infix.Tree Where.Op Where.Leaf → Bool
  | .atom l => leafOk R l
  | .pre _ t => condOk R t
  | .chain t r => condOk R t && condRestOk R r
def condRestOk (R : Renaming) : Infix.Rest Where.Op Where.Leaf → Bool
  | .one _ t => condOk R t
  | .more _ t r => condOk R t && condRestOk R r
end

/-- Which dimension each slice of a component stands for. -/
def Renaming.within (R : Renaming) (c : Component V) : Renaming :=
  { R with marks := fun n => (c.defn.slices.lookup n).bind fun l => l.head?.bind fun e => sliceDim R e.2 }

/-- A component that does not depend on names or order of free dimensions. -/
def componentOk (R : Renaming) (c : Component V) : Bool :=
  decide c.foreach.Nodup && (Units.conditions c).all (condOk R) &&
    c.defn.equations.all (fun e => bodyOk (R.within c) e.2) &&
    c.defn.subs.all (fun p => p.2.all (fun e => exOk (R.within c) e.2)) &&
    c.defn.slices.all (fun p => p.2.all (fun e => sliceFits (R.within c) p.1 e.2))

def variableOk (R : Renaming) (v : Variable V) : Bool := decide v.foreach.Nodup && condOk R v.top

/-- Math that does not depend on names or order of free dimensions. -/
structure Nameless (R : Renaming) (M : Math V) : Prop where
  vars : ∀ v ∈ M.vars, variableOk R v = true
  globals : ∀ c ∈ M.globals, componentOk R c = true
  constraints : ∀ c ∈ M.constraints, componentOk R c = true
  objectives : ∀ c ∈ M.objectives, componentOk R c = true ∧ c.foreach = []

/-- Decisions differ by name. -/
def Distinct (M : Math V) : Prop := (M.vars.map (fun v => v.name)).Nodup

end Rename
end Calliope
