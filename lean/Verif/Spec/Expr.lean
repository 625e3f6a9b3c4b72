import Mathlib.Algebra.BigOperators.Group.List.Basic
import Mathlib.Data.List.Dedup
import Verif.Model.Expr

/-!
# What expression strings mean

The meaning of an expression is a function of points: a point chooses a label for every dimension.
`Fn.dims` are the dimensions it may depend on.
-/

namespace Calliope
namespace Expr

open Grid

abbrev Point := String → Label

/-- `ρ` with label `l` for dimension `d`. -/
def set (ρ : Point) (d : String) (l : Label) : Point := fun x => if x = d then l else ρ x

/-- All points that differ from `ρ` along the dimensions `ds` only. -/
def points (coords : String → List Label) : List String → Point → List Point
  | [], ρ => [ρ]
  | d :: ds, ρ => (coords d).flatMap (fun l => points coords ds (set ρ d l))

variable {V : Type}

/-- A quantity over the points of some dimensions; `none` is missing. -/
structure Fn (V : Type) where
  dims : List String
  val : Point → Option V

/-- The sum of the values that are not missing, missing if all are. -/
def total [AddCommMonoid V] (l : List (Option V)) : Option V :=
  if ∀ v ∈ l, v = none then none else some (l.map (fun v => v.getD 0)).sum

/-- The label `n` places before `l`, cyclically. -/
def rolled (labels : List Label) (n : Int) (l : Label) : Label :=
  labels.getD (((labels.idxOf l : Int) - n) % (labels.length : Int)).toNat l

/-- The labels from `l` on, `n` of them unless the dimension ends before. -/
def window (labels : List Label) (n : Nat) (l : Label) : List Label :=
  (labels.drop (labels.idxOf l)).take n

/-- `ρ` with what the lookup arrays hold at `ρ0`. -/
def looked (coords : String → List Label) (ρ0 : Point) : List (String × Arr (Option Label)) →
    Point → Option Point
  | [], ρ => some ρ
  | (d, g) :: rest, ρ =>
    match g.at ρ0 with
    | some l => if l ∈ coords d then (looked coords ρ0 rest ρ).map (fun σ => set σ d l) else none
    | none => none

/-- The value, where the condition holds. -/
def Fn.mask (m : Point → Bool) (wd : List String) (x : Fn V) : Fn V :=
  ⟨x.dims ++ wd, fun ρ => if m ρ then x.val ρ else none⟩

/-- The sum over the dimensions `over` that matter. -/
def Fn.sumOver [AddCommMonoid V] (coords : String → List Label) (over : List String) (x : Fn V) : Fn V :=
  ⟨x.dims.filter (fun d => decide (d ∉ over)),
   fun ρ => total ((points coords ((x.dims.filter (fun d => decide (d ∈ over))).dedup) ρ).map x.val)⟩

/-- The sum over all points with the group `ρ groupDim`. -/
def Fn.group [AddCommMonoid V] (coords : String → List Label) (g : Arr (Option Label))
    (groupDim : String) (x : Fn V) : Fn V :=
  ⟨groupDim :: x.dims.filter (fun d => decide (d ∉ g.dims)),
   fun ρ => total (((points coords g.dims ρ).filter
      (fun σ => decide (g.at σ = some (ρ groupDim)))).map x.val)⟩

/-- The value at the points `n` places before. -/
def Fn.rolled (coords : String → List Label) : List (String × Int) → Fn V → Fn V
  | [], x => x
  | (d, n) :: rest, x =>
    Fn.rolled coords rest ⟨x.dims, fun ρ => x.val (set ρ d (Expr.rolled (coords d) n (ρ d)))⟩

/-- The sum over a window of the dimension `d`. -/
def Fn.next [AddCommMonoid V] (coords : String → List Label) (d : String) (n : Nat) (x : Fn V) : Fn V :=
  ⟨x.dims, fun ρ => total ((window (coords d) n (ρ d)).map (fun l => x.val (set ρ d l)))⟩

/-- The value at the point the lookup arrays name. -/
def Fn.select (coords : String → List Label) (gs : List (String × Arr (Option Label))) (x : Fn V) : Fn V :=
  ⟨x.dims, fun ρ => match looked coords ρ gs ρ with
    | some σ => x.val σ
    | none => none⟩

/-- The label a slice stands for at a point: itself, or by a reference the label, the position it is defined by
(counted from the end if negative), or what an input holds, rolled or not. -/
def labelOf (E : Env V) (slices : String → Option SliceDef) (ρ : Point) : Slicer → Option Label
  | .label l => some l
  | .ref n => match slices n with
    | none => none
    | some (.label l) => some l
    | some (.valAt d i) =>
      if i < 0 then (E.coords d).reverse[(-i - 1).toNat]? else (E.coords d)[i.toNat]?
    | some (.lookup m shifts) => match E.lookup m with
      | some g => (Fn.rolled E.coords shifts ⟨g.dims, g.at⟩).val ρ
      | none => none

/-- The dimensions that the label depends on. -/
def sliceDims (E : Env V) (slices : String → Option SliceDef) : Slicer → List String
  | .label _ => []
  | .ref n => match slices n with
    | some (.lookup m _) => match E.lookup m with
      | some g => g.dims
      | none => []
    | _ => []

/-- `ρ` with the given slices at `ρ0`; `none` if one is not defined. -/
def sliced (E : Env V) (slices : String → Option SliceDef) (ρ0 : Point) : List (String × Slicer) → Point →
    Option Point
  | [], ρ => some ρ
  | (d, s) :: rest, ρ =>
    match labelOf E slices ρ0 s with
    | some l => if l ∈ E.coords d then (sliced E slices ρ0 rest ρ).map (fun σ => set σ d l) else none
    | none => none

mutual
/-- The expression with the sub-expressions in place of references to them. -/
def inline (subs : String → Option (Ex V)) : Ex V → Ex V
  | .num v => .num v
  | .comp n => .comp n
  | .sliced n ss => .sliced n ss
  | .sub n => (subs n).getD (.sub n)
  | .sign o t => .sign o (inline subs t)
  | .chain t r => .chain (inline subs t) (inlineRest subs r)
  | .sum t over => .sum (inline subs t) over
  | .reduceCarrier t flow => .reduceCarrier (inline subs t) flow
  | .cond t c => .cond (inline subs t) (inline subs c)
  | .roll t shifts => .roll (inline subs t) shifts
  | .groupSum t g d => .groupSum (inline subs t) g d
  | .groupDatetime t o g => .groupDatetime (inline subs t) o g
  | .sumNextN t o n => .sumNextN (inline subs t) o n
  | .select t ls => .select (inline subs t) ls
def inlineRest (subs : String → Option (Ex V)) : ExRest V → ExRest V
  | .one o t => .one o (inline subs t)
  | .more o t r => .more o (inline subs t) (inlineRest subs r)
end

mutual
/-- The meaning of an expression, if every operand of an operator is missing where `m` is false; `wd` are
the dimensions of `m`.  (References to sub-expressions have none: see `inline`.) -/
def mean [AddCommMonoid V] (E : Env V) (slices : String → Option SliceDef)
    (m : Point → Bool) (wd : List String) :
    Ex V → Fn V
  | .num v => ⟨[], fun _ => some v⟩
  | .comp n => match E.comp n with
    | some c => ⟨c.arr.dims, fun ρ => (c.arr.at ρ).or c.default⟩
    | none => ⟨[], fun _ => none⟩
  | .sliced n ss => match E.comp n with
    | some c => ⟨c.arr.dims.filter (fun d => decide (d ∉ ss.map Prod.fst)) ++
        ss.flatMap (fun p => sliceDims E slices p.2), fun ρ =>
        match sliced E slices ρ ss ρ with
        | some σ => (c.arr.at σ).or c.default
        | none => none⟩
    | none => ⟨[], fun _ => none⟩
  | .sub _ => ⟨[], fun _ => none⟩
  | .sign o t =>
      let x := mean E slices m wd t
      ⟨x.dims, fun ρ => if o = .minus then E.neg (x.val ρ) else x.val ρ⟩
  | .chain t r => meanRest E slices m wd ((mean E slices m wd t).mask m wd) r
  | .sum t over => (mean E slices m wd t).sumOver E.coords over
  | .reduceCarrier t flow => match E.carrier flow with
    | some c => ((mean E slices m wd t).mask c.at c.dims).sumOver E.coords ["carriers"]
    | none => ⟨[], fun _ => none⟩
  | .cond t c =>
      let x := mean E slices m wd t
      let y := mean E slices m wd c
      ⟨x.dims ++ y.dims, fun ρ => match y.val ρ with
        | some b => if E.truthy b then x.val ρ else none
        | none => none⟩
  | .roll t shifts => (mean E slices (fun _ => true) [] t).rolled E.coords shifts
  | .groupSum t groupby groupDim => match E.lookup groupby with
    | some g => (mean E slices (fun _ => true) [] t).group E.coords g groupDim
    | none => ⟨[], fun _ => none⟩
  | .groupDatetime t over group =>
      (mean E slices (fun _ => true) [] t).group E.coords
        ⟨[over], fun c => some (E.period group (c.headD ""))⟩ group
  | .sumNextN t over n => (mean E slices m wd t).next E.coords over n.toNat
  | .select t ls => (mean E slices m wd t).select E.coords
      (ls.filterMap (fun p => (E.lookup p.2).map (fun g => (p.1, g))))
def meanRest [AddCommMonoid V] (E : Env V) (slices : String → Option SliceDef)
    (m : Point → Bool) (wd : List String)
    (acc : Fn V) : ExRest V → Fn V
  | .one o t =>
      let x := (mean E slices m wd t).mask m wd
      ⟨acc.dims ++ x.dims, fun ρ => E.op o (acc.val ρ) (x.val ρ)⟩
  | .more o t r =>
      let x := (mean E slices m wd t).mask m wd
      meanRest E slices m wd ⟨acc.dims ++ x.dims, fun ρ => E.op o (acc.val ρ) (x.val ρ)⟩ r
end

mutual
/-- No lookup names a dimension twice, and windows are not of negative length. -/
def Ok : Ex V → Prop
  | .num _ | .comp _ | .sliced _ _ | .sub _ => True
  | .sign _ t | .sum t _ | .reduceCarrier t _ | .roll t _ | .groupSum t _ _
  | .groupDatetime t _ _ => Ok t
  | .chain t r => Ok t ∧ OkRest r
  | .cond t c => Ok t ∧ Ok c
  | .sumNextN t _ n => Ok t ∧ 0 ≤ n
  | .select t ls => Ok t ∧ (ls.map Prod.fst).Nodup
def OkRest : ExRest V → Prop
  | .one _ t => Ok t
  | .more _ t r => Ok t ∧ OkRest r
end

mutual
/-- No operator outside the functions that ignore the condition (`roll`, `group_sum`, `group_datetime`). -/
def NoOps : Ex V → Prop
  | .num _ | .comp _ | .sliced _ _ | .sub _ => True
  | .sign _ t | .sum t _ | .reduceCarrier t _ | .sumNextN t _ _ | .select t _ => NoOps t
  | .cond t c => NoOps t ∧ NoOps c
  | .roll _ _ | .groupSum _ _ _ | .groupDatetime _ _ _ => True
  | .chain _ _ => False
end

mutual
/-- Whatever combines several points does so along dimensions outside `wd`, or combines values that hold no
operator. -/
def Apart (wd : List String) : Ex V → Prop
  | .num _ | .comp _ | .sliced _ _ | .sub _ => True
  | .sign _ t => Apart wd t
  | .chain t r => Apart wd t ∧ ApartRest wd r
  | .cond t c => Apart wd t ∧ Apart wd c
  | .roll _ _ | .groupSum _ _ _ | .groupDatetime _ _ _ => True
  | .sum t over => NoOps t ∨ ((∀ d ∈ over, d ∉ wd) ∧ Apart wd t)
  | .reduceCarrier t _ => NoOps t ∨ ("carriers" ∉ wd ∧ Apart wd t)
  | .sumNextN t over _ => NoOps t ∨ (over ∉ wd ∧ Apart wd t)
  | .select t ls => NoOps t ∨ ((∀ d ∈ ls.map Prod.fst, d ∉ wd) ∧ Apart wd t)
def ApartRest (wd : List String) : ExRest V → Prop
  | .one _ t => Apart wd t
  | .more _ t r => Apart wd t ∧ ApartRest wd r
end

/-- Arrays have every dimension once. -/
structure WellFormed (E : Env V) : Prop where
  comp : ∀ n c, E.comp n = some c → c.arr.dims.Nodup
  lookup : ∀ n g, E.lookup n = some g → g.dims.Nodup
  carrier : ∀ n g, E.carrier n = some g → g.dims.Nodup

/-- A label of its dimension, for every dimension of `ds`. -/
def In (E : Env V) (ds : List String) (ρ : Point) : Prop := ∀ d ∈ ds, ρ d ∈ E.coords d

/-- The input that a slice refers to exists, and has the dimensions it is rolled along. -/
def Sliceable (E : Env V) (slices : String → Option SliceDef) : Slicer → Prop
  | .label _ => True
  | .ref n => match slices n with
    | some (.lookup m shifts) => ∃ g, E.lookup m = some g ∧ ∀ p ∈ shifts, p.1 ∈ g.dims
    | _ => True

mutual
/-- Components, slices and lookup arrays exist, and helper functions are given arrays that have the dimensions
they work along. -/
def Legal [AddCommMonoid V] (E : Env V) (slices : String → Option SliceDef) (m : Point → Bool)
    (wd : List String) : Ex V → Prop
  | .num _ => True
  | .comp n => (∃ c, E.comp n = some c) ∨ E.isDim n = true
  | .sliced n ss => (ss.map Prod.fst).Nodup ∧ ((∃ c, E.comp n = some c ∧ ∀ p ∈ ss, p.1 ∈ c.arr.dims ∧
      Sliceable E slices p.2 ∧ ∀ ρ, In E (sliceDims E slices p.2) ρ →
        ∃ l, labelOf E slices ρ p.2 = some l ∧ l ∈ E.coords p.1) ∨
      (E.comp n = none ∧ E.isDim n = true ∧ ss = []))
  | .sub _ => False
  | .sign _ t => Legal E slices m wd t
  | .chain t r => Legal E slices m wd t ∧ LegalRest E slices m wd r
  | .sum t _ => Legal E slices m wd t
  | .reduceCarrier t flow => Legal E slices m wd t ∧ ∃ c, E.carrier flow = some c
  | .cond t c => Legal E slices m wd t ∧ Legal E slices m wd c
  | .roll t shifts => Legal E slices (fun _ => true) [] t ∧
      ∀ p ∈ shifts, p.1 ∈ (mean E slices (fun _ => true) [] t).dims
  | .groupSum t groupby groupDim => Legal E slices (fun _ => true) [] t ∧
      ∃ g, E.lookup groupby = some g ∧
        (∀ d ∈ g.dims, d ∈ (mean E slices (fun _ => true) [] t).dims) ∧
        (groupDim ∈ (mean E slices (fun _ => true) [] t).dims → groupDim ∈ g.dims) ∧
        ∃ ρ, In E g.dims ρ ∧ g.at ρ ≠ none
  | .groupDatetime t over group => Legal E slices (fun _ => true) [] t ∧
      over ∈ (mean E slices (fun _ => true) [] t).dims ∧
      (group ∈ (mean E slices (fun _ => true) [] t).dims → group = over) ∧ E.coords over ≠ []
  | .sumNextN t over _ => Legal E slices m wd t ∧ over ∈ (mean E slices m wd t).dims
  | .select t ls => Legal E slices m wd t ∧
      (∀ d ∈ ls.map Prod.fst, d ∈ (mean E slices m wd t).dims) ∧
      ∀ p ∈ ls, ∃ g, E.lookup p.2 = some g ∧ (∀ d, d ∈ g.dims ↔ d ∈ ls.map Prod.fst) ∧
        ∃ ρ l, In E g.dims ρ ∧ g.at ρ = some l ∧ l ∈ E.coords p.1
def LegalRest [AddCommMonoid V] (E : Env V) (slices : String → Option SliceDef) (m : Point → Bool)
    (wd : List String) : ExRest V → Prop
  | .one _ t => Legal E slices m wd t
  | .more _ t r => Legal E slices m wd t ∧ LegalRest E slices m wd r
end

end Expr
end Calliope
