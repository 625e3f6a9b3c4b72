import Verif.Model.LatexIndex
import Verif.Spec.Expr

/-!
# Specification: what a reader takes documented math to mean

A point chooses a label for every dimension; the text of an expression has a value at a point.  `node \in nodes` below a
sum means that the sum is taken over all nodes, and that `node` is the bound index inside.
-/

namespace Calliope
namespace LatexIndex

open Grid (Label Arr)
open Expr

variable {V : Type}

mutual
/-- The label that an item stands for, at the place of dimension `d`. -/
def Item.label (E : Env V) (ρ : Point) (d : String) : Item → Option Label
  | .it _ => some (ρ d)
  | .moved _ n => some (rolled (E.coords d) (-n) (ρ d))
  | .fixed _ l => some l
  | .nth _ dim i => if i < 0 then (E.coords dim).reverse[(-i - 1).toNat]? else (E.coords dim)[i.toNat]?
  | .looked _ name sub _ => match E.lookup name with
    | some g => match sub.labels E ρ g.dims with
      | some c => g.val c
      | none => none
    | none => none
/-- The labels that a subscript stands for; missing if one is, or is no label of its dimension. -/
def Items.labels (E : Env V) (ρ : Point) : Items → List String → Option (List Label)
  | .nil, [] => some []
  | .cons x r, d :: ds => match x.label E ρ d, r.labels E ρ ds with
    | some l, some ls => if l ∈ E.coords d then some (l :: ls) else none
    | _, _ => none
  | _, _ => none
end

/-- The value of a component at its subscript. -/
def readComp (E : Env V) (ρ : Point) (n : String) (sub : Items) : Option V :=
  match E.comp n with
  | some c => match sub.labels E ρ c.arr.dims with
    | some ls => (c.arr.val ls).or c.default
    | none => none
  | none => none

/-- The label of a lookup array at its subscript. -/
def readLookup (E : Env V) (ρ : Point) (n : String) (sub : Items) : Option Label :=
  match E.lookup n with
  | some g => match sub.labels E ρ g.dims with
    | some ls => g.val ls
    | none => none
  | none => none

/-- The value of a sign or a sum, given the values of the term after it. -/
def Un.says [AddCommMonoid V] (E : Env V) (ρ : Point) (x : Point → Option V) : Un → Option V
  | .sign o => if o = .minus then E.neg (x ρ) else x ρ
  | .sum over => total ((points E.coords over ρ).map x)
  | .carriers flow => match E.carrier flow with
    | some c => total (((points E.coords ["carriers"] ρ).filter c.at).map x)
    | none => none
  | .group over g sub groupDim =>
    total (((points E.coords over ρ).filter (fun σ => decide (readLookup E σ g sub = some (σ groupDim)))).map x)
  | .period over g =>
    total (((points E.coords [over] ρ).filter (fun σ => decide (E.period g (σ over) = σ g))).map x)

/-- The value of two terms. -/
def Bin.says (E : Env V) (x y : Option V) : Bin → Option V
  | .op o => E.op o x y
  | .cond => match y with
    | some b => if E.truthy b then x else none
    | none => none

/-- The value of documented math at a point. -/
def Text.says [AddCommMonoid V] (E : Env V) : Text V → Point → Option V
  | .num v, _ => some v
  | .name _, _ => none
  | .comp n sub, ρ => readComp E ρ n sub
  | .un u t, ρ => u.says E ρ (t.says E)
  | .bin b t u, ρ => b.says E (t.says E ρ) (u.says E ρ)

/-! ### Math that is printed as it is evaluated -/

/-- The slices hold an array of labels. -/
def ByLookup (slices : String → Option SliceDef) (ss : List (String × Slicer)) : Prop :=
  ∃ p ∈ ss, ∃ n m sh, p.2 = .ref n ∧ slices n = some (.lookup m sh)

/-- The lookup array has dimension `d`. -/
def LookupHas (E : Env V) (m d : String) : Prop := ∃ g, E.lookup m = some g ∧ d ∈ g.dims

mutual
/-- A component or lookup array of the expression has dimension `d`. -/
def Mentioned (E : Env V) (slices : String → Option SliceDef) (d : String) : Ex V → Prop
  | .num _ | .sub _ => False
  | .comp n => ∃ c, E.comp n = some c ∧ d ∈ c.arr.dims
  | .sliced n ss => (∃ c, E.comp n = some c ∧ d ∈ c.arr.dims) ∨
      ∃ p ∈ ss, ∃ r m sh, p.2 = .ref r ∧ slices r = some (.lookup m sh) ∧ LookupHas E m d
  | .sign _ t | .sum t _ | .reduceCarrier t _ | .roll t _ | .groupDatetime t _ _ | .sumNextN t _ _ =>
      Mentioned E slices d t
  | .chain t r => Mentioned E slices d t ∨ MentionedRest E slices d r
  | .cond t c => Mentioned E slices d t ∨ Mentioned E slices d c
  | .groupSum t g _ => Mentioned E slices d t ∨ LookupHas E g d
  | .select t ls => Mentioned E slices d t ∨ ∃ p ∈ ls, LookupHas E p.2 d
/-- As `Mentioned`. -/
def MentionedRest (E : Env V) (slices : String → Option SliceDef) (d : String) : ExRest V → Prop
  | .one _ t => Mentioned E slices d t
  | .more _ t r => Mentioned E slices d t ∨ MentionedRest E slices d r
end

mutual
/-- The expression can be rolled along the dimensions `ds`, or have labels looked up for them: nothing in it works along
one of them already, and nothing in it that is looked up has one of them as a further dimension. -/
def Ready (E : Env V) (slices : String → Option SliceDef) (ds : List String) : Ex V → Prop
  | .num _ | .comp _ | .sub _ => True
  | .sliced n ss => (∀ p ∈ ss, ∀ r m sh, p.2 = .ref r → slices r = some (.lookup m sh) →
        ∀ d ∈ ds, d ∉ sh.map Prod.fst) ∧
      (ByLookup slices ss → ∀ c, E.comp n = some c → ∀ d ∈ ds, d ∈ c.arr.dims → d ∈ ss.map Prod.fst)
  | .sign _ t => Ready E slices ds t
  | .chain t r => Ready E slices ds t ∧ ReadyRest E slices ds r
  | .sum t over => Ready E slices ds t ∧ ∀ d ∈ ds, d ∉ over
  | .reduceCarrier t flow => Ready E slices ds t ∧ ∀ d ∈ ds, d ≠ "carriers" ∧ ∀ c, E.carrier flow = some c → d ∉ c.dims
  | .cond t c => Ready E slices ds t ∧ Ready E slices ds c
  | .roll t shifts => Ready E slices ds t ∧ ∀ d ∈ ds, d ∉ shifts.map Prod.fst
  | .groupSum t g groupDim => Ready E slices ds t ∧ ∀ d ∈ ds, d ≠ groupDim ∧ ¬ LookupHas E g d
  | .groupDatetime t over group => Ready E slices ds t ∧ ∀ d ∈ ds, d ≠ over ∧ d ≠ group
  | .sumNextN _ _ _ => False
  | .select t ls => Ready E slices ds t ∧ ∀ d ∈ ds, d ∉ ls.map Prod.fst ∧ ¬ Mentioned E slices d t ∧
      ∀ p ∈ ls, ¬ LookupHas E p.2 d
/-- As `Ready`. -/
def ReadyRest (E : Env V) (slices : String → Option SliceDef) (ds : List String) : ExRest V → Prop
  | .one _ t => Ready E slices ds t
  | .more _ t r => Ready E slices ds t ∧ ReadyRest E slices ds r
end

/-- The lookup arrays hold a label of their dimension everywhere. -/
def Complete (E : Env V) (ls : List (String × String)) : Prop :=
  ∀ p ∈ ls, ∀ g, E.lookup p.2 = some g → ∀ ρ, In E g.dims ρ → ∃ l, g.at ρ = some l ∧ l ∈ E.coords p.1

mutual
/-- Sums are over dimensions that the array has, and group dimensions are no dimensions of the grouping; what is rolled or
has labels looked up is ready for that, and is a component unless the lookup arrays are complete. -/
def Documented [AddCommMonoid V] (E : Env V) (slices : String → Option SliceDef) (D : List String) : Ex V → Prop
  | .num _ | .comp _ | .sub _ => True
  | .sliced _ ss => ∀ p ∈ ss, ∀ r m sh, p.2 = .ref r → slices r = some (.lookup m sh) → (sh.map Prod.fst).Nodup
  | .sign _ t => Documented E slices D t
  | .chain t r => Documented E slices D t ∧ DocumentedRest E slices D r
  | .sum t over => Documented E slices D t ∧ over.Nodup ∧
      ∀ d ∈ over, d ∈ (mean E slices (fun _ => true) [] t).dims
  | .reduceCarrier t flow => Documented E slices D t ∧ ("carriers" ∈ (mean E slices (fun _ => true) [] t).dims ∨
      ∃ c, E.carrier flow = some c ∧ "carriers" ∈ c.dims)
  | .cond t c => Documented E slices D t ∧ Documented E slices D c
  | .roll t shifts => Documented E slices D t ∧ (shifts.map Prod.fst).Nodup ∧ (∀ d ∈ shifts.map Prod.fst, d ∈ D) ∧
      Ready E slices (shifts.map Prod.fst) t
  | .groupSum t g groupDim => Documented E slices D t ∧ ¬ LookupHas E g groupDim
  | .groupDatetime t over group => Documented E slices D t ∧ group ≠ over
  | .sumNextN _ _ _ => False
  | .select t ls => Documented E slices D t ∧ (∀ d ∈ ls.map Prod.fst, d ∈ D) ∧ Ready E slices (ls.map Prod.fst) t ∧
      (Complete E ls ∨ ∃ n, t = .comp n)
/-- As `Documented`. -/
def DocumentedRest [AddCommMonoid V] (E : Env V) (slices : String → Option SliceDef) (D : List String) : ExRest V → Prop
  | .one _ t => Documented E slices D t
  | .more _ t r => Documented E slices D t ∧ DocumentedRest E slices D r
end

/-- The dimensions of the math: those of all arrays, each with an iterator of its own. -/
structure Iterators (E : Env V) (it : String → String) (D : List String) : Prop where
  nodup : D.Nodup
  own : ∀ d ∈ D, ∀ e ∈ D, it d = it e → d = e
  comp : ∀ n c, E.comp n = some c → ∀ d ∈ c.arr.dims, d ∈ D
  lookup : ∀ n g, E.lookup n = some g → ∀ d ∈ g.dims, d ∈ D

/-! ### Names that can be told apart in the text -/

/-- No underscore is followed by a backslash, whatever comes after the text. -/
def inert : List Char → Bool
  | [] => true
  | [x] => x != '_'
  | x :: y :: r => (x != '_' || y != '\\') && inert (y :: r)

/-- Text that stays apart from what is around it. -/
def Clean (s : List Char) : Prop := '{' ∉ s ∧ '}' ∉ s ∧ ',' ∉ s ∧ '\\' ∉ s

/-- An iterator. -/
def Word (s : List Char) : Prop := Clean s ∧ '+' ∉ s ∧ '-' ∉ s ∧ '=' ∉ s

mutual
/-- All names and labels in an item. -/
def Item.Tidy : Item → Prop
  | .looked s name sub _ => LatexIndex.Clean s.toList ∧ LatexIndex.Clean name.toList ∧ sub.Tidy
  | .it s => LatexIndex.Clean s.toList
  | .moved s _ => LatexIndex.Clean s.toList
  | .fixed s l => LatexIndex.Clean s.toList ∧ LatexIndex.Clean l.toList
  | .nth s d _ => LatexIndex.Clean s.toList ∧ LatexIndex.Clean d.toList
/-- All names and labels in a subscript. -/
def Items.Tidy : Items → Prop
  | .nil => True
  | .cons x r => x.Tidy ∧ r.Tidy
end

section

variable (it : String → String) (num : V → String)

/-- The names in what is printed before a term. -/
def Un.Tidy : Un → Prop
  | .sign _ => True
  | .sum over => ∀ d ∈ over, Clean (it d).toList ∧ Clean d.toList
  | .carriers flow => Clean flow.toList
  | .group over g sub groupDim => (∀ d ∈ over, Clean (it d).toList ∧ Clean d.toList) ∧ Clean g.toList ∧ sub.Tidy ∧
      Clean (it groupDim).toList
  | .period over g => Clean (it over).toList ∧ Clean over.toList ∧ Clean g.toList ∧ Clean (it g).toList

/-- All names and numbers in a text. -/
def Text.Tidy : Text V → Prop
  | .num v => inert (num v).toList = true
  | .name n => inert n.toList = true
  | .comp n sub => Clean n.toList ∧ sub.Tidy
  | .un u t => u.Tidy it ∧ t.Tidy
  | .bin _ t u => t.Tidy ∧ u.Tidy

end

end LatexIndex
end Calliope
