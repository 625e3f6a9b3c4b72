import Verif.Spec.BaseMath

/-!
# What the carrier balance is about
-/

namespace Calliope
namespace BaseMath

open Grid Infix Expr Expand Build Where

variable {V : Type}

/-- Carrier flows: outflow, inflow and export of technologies, unmet demand and unused supply (negative). -/
structure Flows [Zero V] (E : Expr.Env V) where
  out : Point → V
  inn : Point → V
  exp : Point → V
  unmet : Point → V
  unused : Point → V
  isOut : Is E "flow_out" ["nodes", "techs", "carriers", "timesteps"] out
  isInn : Is E "flow_in" ["nodes", "techs", "carriers", "timesteps"] inn
  isExp : Is E "flow_export" ["nodes", "techs", "carriers", "timesteps"] exp
  isUnmet : Is E "unmet_demand" [] unmet
  isUnused : Is E "unused_supply" [] unused

/-- Efficiencies of technologies and of transmission per distance. -/
structure Efficiencies [Zero V] (E : Expr.Env V) where
  out : Point → V
  parasitic : Point → V
  outPerDistance : Point → V
  inn : Point → V
  innPerDistance : Point → V
  distance : Point → V
  isOut : Is E "flow_out_eff" [] out
  isParasitic : Is E "flow_out_parasitic_eff" [] parasitic
  isOutPerDistance : Is E "flow_out_eff_per_distance" [] outPerDistance
  isInn : Is E "flow_in_eff" [] inn
  isInnPerDistance : Is E "flow_in_eff_per_distance" [] innPerDistance
  isDistance : Is E "distance" [] distance

/-- A quantity is zero outside the items of the model. -/
def Only [Zero V] (W : Where.Env) (sets : List String) (f : Point → V) : Prop :=
  ∀ ρ, f ρ ≠ 0 → InModel W sets ρ

instance (W : Where.Env) (n s : String) (ρ : Point) : Decidable (Text W n s ρ) :=
  inferInstanceAs (Decidable (_ = _))

/-- A quantity, for technologies of one kind only. -/
def ofKind [Zero V] (W : Where.Env) (k : String) (f : Point → V) : Point → V :=
  fun ρ => if Text W "base_tech" k ρ then f ρ else 0

/-- The sum over all nodes, carriers and technologies. -/
def everywhere [AddCommMonoid V] (E : Expr.Env V) (f : Point → V) : Point → V :=
  sumOver E "nodes" (sumOver E "carriers" (sumOver E "techs" f))

/-- What was built is what other components see: missing items are zero. -/
def Holds [Zero V] (W : Where.Env) (E : Expr.Env V) (n : String) (ds : List String) (b : Arr (Option V))
    (f : Point → V) : Prop :=
  Is E n ds f ∧ ∀ ρ, Valid W ρ → f ρ = (b.at ρ).getD 0

/-- The variable or expression `n` exists at an item. -/
def Exists (W : Where.Env) (n : String) (ρ : Point) : Prop := ∃ a, W.result n = some a ∧ a.at ρ = true

/-- The variable or expression `n` has no other dimensions than `sets`. -/
def ResultWithin (W : Where.Env) (sets : List String) (n : String) : Prop :=
  ∀ a, W.result n = some a → ∀ d ∈ a.dims, d ∈ sets

/-- The efficiency of giving out a carrier. -/
def Efficiencies.giving [Field V] {E : Expr.Env V} (F : Efficiencies E) (W : Where.Env) (pw : V → V → V)
    (ρ : Point) : V :=
  if Text W "base_tech" "transmission" ρ then
    F.out ρ * F.parasitic ρ * pw (F.outPerDistance ρ) (F.distance ρ)
  else F.out ρ * F.parasitic ρ

/-- The efficiency of taking in a carrier. -/
def Efficiencies.taking [Field V] {E : Expr.Env V} (F : Efficiencies E) (W : Where.Env) (pw : V → V → V)
    (ρ : Point) : V :=
  if Text W "base_tech" "transmission" ρ then F.inn ρ * pw (F.innPerDistance ρ) (F.distance ρ)
  else F.inn ρ

end BaseMath
end Calliope
