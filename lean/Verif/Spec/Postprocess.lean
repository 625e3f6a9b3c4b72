import Verif.Spec.Supply
import Verif.Spec.BaseTotal
import Verif.Model.Postprocessed

/-!
# What postprocessed results are about
-/

namespace Calliope
namespace BaseMath

open Grid Infix Expr Expand Build Where

variable {V : Type}

/-- A comparison of a result with zero sees the value of the result, where it exists. -/
structure Seen [Zero V] [LT V] (W : Where.Env) (n : String) (sets : List String) (f : Point → V) : Prop where
  within : ∀ a, W.number n = some a → ∀ d ∈ a.dims, d ∈ sets
  positive : ∀ ρ, Valid W ρ → (Less (.num 0) (asNumber (numberOf (W.number n) ρ)) ↔ Exists W n ρ ∧ 0 < f ρ)

/-- A comparison of the sum of a result with zero sees the sum. -/
structure SeenTotal [AddCommMonoid V] [LT V] (W : Where.Env) (E : Expr.Env V) (n d : String) (sets : List String)
    (f : Point → V) : Prop where
  within : ∀ a, W.sums n [d] = some a → ∀ d ∈ a.dims, d ∈ sets
  positive : ∀ ρ, Valid W ρ → (Less (.num 0) (asNumber (numberOf (W.sums n [d]) ρ)) ↔ 0 < sumOver E d f ρ)

/-- A comparison of an input with zero sees its value, where it is not infinite. -/
def SeenInput [Zero V] [LT V] (W : Where.Env) (n : String) (f : Point → V) : Prop :=
  ∀ ρ, Valid W ρ → valueOf (W.input n) ρ ≠ .posInf → (Less (.num 0) (asNumber (valueOf (W.input n) ρ)) ↔ 0 < f ρ)

/-- A quantity varies along these dimensions only. -/
def VariesAlong (ds : List String) (f : Point → V) : Prop := ∀ ρ σ, SameAlong ds ρ σ → f σ = f ρ

/-- The data of a component do not have this dimension. -/
def Lacks (E : Expr.Env V) (n d : String) : Prop := ∀ c, E.comp n = some c → d ∉ c.arr.dims

/-- Time steps have a length and stand for some time. -/
structure Clock [Field V] [LinearOrder V] (W : Where.Env) (E : Expr.Env V) (hours weight : Point → V) : Prop where
  isHours : Is E "timestep_resolution" ["timesteps"] hours
  isWeight : Is E "timestep_weights" [] weight
  hoursPos : ∀ ρ, Valid W ρ → 0 < hours ρ
  weightPos : ∀ ρ, Valid W ρ → 0 < weight ρ
  hoursOnly : VariesAlong ["timesteps"] hours
  weightOnly : VariesAlong ["timesteps"] weight

/-- Costs and generation of a solution. -/
structure Accounts [Field V] [LinearOrder V] (W : Where.Env) (E : Expr.Env V) where
  cost : Point → V
  generation : Point → V
  isCost : Is E "cost" ["nodes", "techs", "costs"] cost
  isGeneration : Is E "total_generation" ["techs", "carriers"] generation
  within : ResultWithin W ["nodes", "techs", "costs"] "cost"
  seen : Seen W "total_generation" ["techs", "carriers"] generation

/-- The quantity that sources are scaled by for the technology and node of `ρ`. -/
def scaleFor [Field V] (W : Where.Env) (E : Expr.Env V) (unit : String) (area cap : Point → V) (ρ : Point) : Point → V :=
  if Text W unit "per_area" ρ then area
  else if Text W unit "per_cap" ρ then sumOver E "carriers" cap
  else fun _ => 1

/-- A supply technology with a finite source and some capacity to use it. -/
structure HasSource [Zero V] [LT V] (W : Where.Env) (sourceCap : Point → V) (ρ : Point) : Prop where
  supply : Text W "base_tech" "supply" ρ
  some : Exists W "source_cap" ρ
  positive : 0 < sourceCap ρ

end BaseMath
end Calliope
