import Verif.Spec.Variables
import Verif.Model.BaseLimits
import Verif.Model.MilpMath

/-!
# What limits on flows, storage and capacities are about
-/

namespace Calliope
namespace BaseMath

open Grid Infix Expr Expand Build Where

variable {V : Type}

/-- Flows, levels and capacities of a solution, with either math for the capacities. -/
structure Plant [Field V] [LE V] (W : Where.Env) (E : Expr.Env V) where
  /-- outflow, inflow and export of carriers -/
  out : Point → V
  inn : Point → V
  exp : Point → V
  /-- use of sources -/
  source : Point → V
  /-- stored energy -/
  level : Point → V
  cap : Point → V
  sourceCap : Point → V
  storageCap : Point → V
  hours : Point → V
  parasitic : Point → V
  isOut : Solves W E flowOutVar out
  isInn : Solves W E flowInVar inn
  isExp : Solves W E flowExportVar exp
  isSource : Solves W E sourceUseVar source
  isLevel : Solves W E storageVar level
  isCap : Solves W E flowCapVar cap ∨ Solves W E flowCapMilpVar cap
  isSourceCap : Solves W E sourceCapVar sourceCap ∨ Solves W E sourceCapMilpVar sourceCap
  isStorageCap : Solves W E storageCapVar storageCap ∨ Solves W E storageCapMilpVar storageCap
  isHours : Is E "timestep_resolution" [] hours
  isParasitic : Is E "flow_out_parasitic_eff" [] parasitic
  capNonneg : ∀ ρ, Valid W ρ → 0 ≤ cap ρ
  hoursNonneg : ∀ ρ, Valid W ρ → 0 ≤ hours ρ
  parasiticNonneg : ∀ ρ, Valid W ρ → 0 ≤ parasitic ρ

/-- Integer units of a solution. -/
structure Units [Field V] [LE V] (W : Where.Env) (E : Expr.Env V) where
  /-- how many are bought -/
  bought : Point → V
  /-- how many run in a time step -/
  running : Point → V
  /-- the flow capacity of each, where it is given -/
  perUnit : Point → V
  isBought : Solves W E purchasedUnitsVar bought
  isRunning : Solves W E operatingUnitsVar running
  isPerUnit : Is E "flow_cap_per_unit" [] perUnit
  perUnitNonneg : ∀ ρ, Valid W ρ → 0 ≤ perUnit ρ

end BaseMath
end Calliope
