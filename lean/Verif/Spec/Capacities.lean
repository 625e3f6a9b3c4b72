import Verif.Spec.Limits

/-!
# What the rules on capacities are about
-/

namespace Calliope
namespace BaseMath

open Grid Infix Expr Expand Build Where

variable {V : Type}

/-- The inputs of the rules on capacities, and the area and link capacities of a solution. -/
structure Rules [Field V] [LE V] (W : Where.Env) (E : Expr.Env V) where
  area : Point → V
  /-- capacity of a link, one for both ends -/
  link : Point → V
  /-- smallest and largest flow capacity per storage capacity -/
  shareMin : Point → V
  shareMax : Point → V
  /-- area per flow capacity -/
  perCap : Point → V
  /-- area that a node has -/
  available : Point → V
  /-- smallest and largest flow capacity at all nodes together -/
  totalMin : Point → V
  totalMax : Point → V
  /-- smallest outflow, as a part of what the capacity gives -/
  least : Point → V
  isArea : Solves W E areaUseVar area ∨ Solves W E areaUseMilpVar area
  isLink : Solves W E linkFlowCapVar link
  isShareMin : Is E "flow_cap_per_storage_cap_min" [] shareMin
  isShareMax : Is E "flow_cap_per_storage_cap_max" [] shareMax
  isPerCap : Is E "area_use_per_flow_cap" [] perCap
  isAvailable : Is E "available_area" [] available
  isTotalMin : Is E "flow_cap_min_systemwide" [] totalMin
  isTotalMax : Is E "flow_cap_max_systemwide" [] totalMax
  isLeast : Is E "flow_out_min_relative" [] least
  within : Within W ["nodes", "techs", "carriers"] ["flow_cap_per_storage_cap_min", "flow_cap_per_storage_cap_max",
    "source_cap_equals_flow_cap", "area_use_per_flow_cap"]
  totalWithin : Within W ["techs", "carriers"] ["flow_cap_min_systemwide", "flow_cap_max_systemwide"]
  areaWithin : Within W ["nodes"] ["available_area"]
  techWithin : Within W ["nodes", "techs"] ["base_tech"]
  leastWithin : Within W ["nodes", "techs", "carriers", "timesteps"] ["flow_out_min_relative"]

/-- The largest flow capacity of the technology at the node is zero, for some carrier of the model. -/
def CannotBuild (W : Where.Env) (ρ : Point) : Prop :=
  (∀ d ∈ ["nodes", "techs"], d ∈ W.matrix.dims ∨ d ∈ W.dims) ∧
  ∃ σ, Valid W σ ∧ SameAlong ["nodes", "techs"] ρ σ ∧ W.matrix.at σ = true ∧
    (valueOf (W.input "flow_cap_max") σ = .num 0 ∨ valueOf (W.input "flow_cap_max") σ = .bool false)

end BaseMath
end Calliope
