import Verif.Model.Expand

/-!
# What expanding equations should yield
-/

namespace Calliope
namespace Expand

open Expr

variable {V C : Type}

/-- Ways to traverse a set: every name once. -/
def Traverses (enum : List String → List String) : Prop :=
  ∀ l, (enum l).Nodup ∧ ∀ n, n ∈ enum l ↔ n ∈ l

/-- One entry for each of the names. -/
def Choice {α : Type} (defs : List (String × List (C × α))) (names : List String)
    (cs : List (Case C α)) : Prop :=
  cs.map Case.name = names ∧
    ∀ c ∈ cs, ∃ l w, defs.lookup c.name = some l ∧ l[c.idx]? = some (w, c.expr) ∧ c.wheres = [w]

/-- How many of some conditions hold. -/
def count {α : Type} (h : C → Bool) (l : List (C × α)) : Nat := (l.filter (fun p => h p.1)).length

/-- How many of some equations hold: all their conditions do. -/
def countEq (h : C → Bool) (l : List (Equation V C)) : Nat :=
  (l.filter (fun e => e.wheres.all h)).length

mutual
/-- Every reference to a sub-expression. -/
def AllSubs : Ex V → List String
  | .sub n => [n]
  | .num _ | .comp _ | .sliced _ _ => []
  | .chain t r => AllSubs t ++ AllSubsRest r
  | .sign _ t | .sum t _ | .reduceCarrier t _ | .roll t _ | .groupSum t _ _ | .groupDatetime t _ _
  | .sumNextN t _ _ | .select t _ => AllSubs t
  | .cond t c => AllSubs t ++ AllSubs c
def AllSubsRest : ExRest V → List String
  | .one _ t => AllSubs t
  | .more _ t r => AllSubs t ++ AllSubsRest r
end

mutual
/-- Every reference to a slice. -/
def AllSlices : Ex V → List String
  | .sliced _ ss => sliceNames ss
  | .num _ | .comp _ | .sub _ => []
  | .chain t r => AllSlices t ++ AllSlicesRest r
  | .sign _ t | .sum t _ | .reduceCarrier t _ | .roll t _ | .groupSum t _ _ | .groupDatetime t _ _
  | .sumNextN t _ _ | .select t _ => AllSlices t
  | .cond t c => AllSlices t ++ AllSlices c
def AllSlicesRest : ExRest V → List String
  | .one _ t => AllSlices t
  | .more _ t r => AllSlices t ++ AllSlicesRest r
end

/-- The sides of an equation. -/
def Body.sides : Body V → List (Ex V)
  | .arith t => [t]
  | .cmp l _ r => [l, r]

mutual
/-- No reference stands under a sign. -/
def NoSignedRef : Ex V → Prop
  | .sub _ | .num _ | .comp _ | .sliced _ _ => True
  | .chain t r => NoSignedRef t ∧ NoSignedRefRest r
  | .sign _ t => AllSubs t = [] ∧ AllSlices t = []
  | .sum t _ | .reduceCarrier t _ | .roll t _ | .groupSum t _ _ | .groupDatetime t _ _
  | .sumNextN t _ _ | .select t _ => NoSignedRef t
  | .cond t c => NoSignedRef t ∧ NoSignedRef c
def NoSignedRefRest : ExRest V → Prop
  | .one _ t => NoSignedRef t
  | .more _ t r => NoSignedRef t ∧ NoSignedRefRest r
end

end Expand
end Calliope
