import Verif.Spec.Limits

/-!
# What integer units and the switch between inflow and outflow are about
-/

namespace Calliope
namespace BaseMath

open Grid Infix Expr Expand Build Where

variable {V : Type}

/-- Nothing flows at an item, whatever the carrier. -/
def Still [Zero V] (W : Where.Env) (f : Point → V) (ρ : Point) : Prop :=
  ∀ l ∈ W.coords "carriers", f (set ρ "carriers" l) = 0

/-- Limits of integer units. -/
structure UnitLimits [Field V] [LE V] (W : Where.Env) (E : Expr.Env V) where
  bigM : Point → V
  capMax : Point → V
  capMin : Point → V
  storageMax : Point → V
  totalMax : Point → V
  totalMin : Point → V
  capTotalMin : Point → V
  /-- the least outflow, as a share of capacity -/
  share : Point → V
  isBigM : Is E "bigM" [] bigM
  isCapMax : Is E "flow_cap_max" [] capMax
  isCapMin : Is E "flow_cap_min" [] capMin
  isStorageMax : Is E "storage_cap_max" [] storageMax
  isTotalMax : Is E "purchased_units_max_systemwide" [] totalMax
  isTotalMin : Is E "purchased_units_min_systemwide" [] totalMin
  isCapTotalMin : Is E "flow_cap_min_systemwide" [] capTotalMin
  isShare : Is E "flow_out_min_relative" [] share
  bigNonneg : ∀ ρ, Valid W ρ → 0 ≤ bigM ρ
  capWithin : Within W ["nodes", "techs", "carriers"] ["flow_cap_max", "flow_cap_min"]
  storageWithin : Within W ["nodes", "techs"] ["storage_cap_max"]
  totalWithin : Within W ["techs"] ["purchased_units_max_systemwide"]
  capTotalWithin : Within W ["techs", "carriers"] ["flow_cap_min_systemwide"]
  shareWithin : Within W ["nodes", "techs", "carriers", "timesteps"] ["flow_out_min_relative"]

end BaseMath
end Calliope
