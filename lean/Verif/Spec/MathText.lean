import Verif.Model.BaseCosts
import Verif.Model.BaseLimits
import Verif.Model.CheckList
import Verif.Model.MathText
import Verif.Model.MilpMath
import Verif.Model.Postprocessed

/-!
# Specification: the math of a model

The components that the theorems about balances, limits, costs, storage, MILP, SPORES and clusters are about, in the order
of the math files.
-/

namespace Calliope
namespace MathText

open BaseMath Expr Build

/-! ### Components that are defined here -/

/-- `spores_score_cumulative` (spores.yaml:65-71). -/
def sporesScoreCumulative : Component Rat :=
  single "spores_score_cumulative" ["nodes", "techs", "carriers"] always (.arith (.comp "spores_score"))

/-- `spores_baseline_cost_tracked` (spores.yaml:73-78). -/
def sporesBaselineCostTracked : Component Rat :=
  single "spores_baseline_cost_tracked" [] always (.arith (.comp "spores_baseline_cost"))

/-- `balance_supply_with_storage` with the sub-expression of `storage_inter_cluster.yaml`
(storage_inter_cluster.yaml:24-37). -/
def balanceSupplyWithStorageIntra : Component Rat :=
  { (balanceSupplyWithStorage : Component Rat) with
    defn := { (balanceSupplyWithStorage : Component Rat).defn with
      subs := [("storage_previous_step", storagePreviousStepIntra)] } }

/-! ### Capacities that are inputs -/

/-- The arrays that are decisions in other modes and inputs in operate mode (operate.yaml:1-50). -/
def capacities : List String :=
  ["area_use", "storage_cap", "purchased_units", "source_cap", "flow_cap", "link_flow_cap"]

/-- Where a condition looks at a capacity, it looks at an input. -/
def asInputsLhs : Where.Lhs → Where.Lhs
  | .result s => if capacities.contains s then .input s else .result s
  | l => l

def asInputsLeaf : Where.Leaf → Where.Leaf
  | .result s => if capacities.contains s then .input s else .result s
  | .cmp l o r => .cmp (asInputsLhs l) o r
  | l => l

mutual
def asInputsCond : Cond → Cond
  | .atom l => .atom (asInputsLeaf l)
  | .pre o t => .pre o (asInputsCond t)
  | .chain t r => .chain (asInputsCond t) (asInputsRest r)
def asInputsRest : Infix.Rest Where.Op Where.Leaf → Infix.Rest Where.Op Where.Leaf
  | .one o t => .one o (asInputsCond t)
  | .more o t r => .more o (asInputsCond t) (asInputsRest r)
end

/-- The component, with capacities as inputs. -/
def asInputs (c : Component Rat) : Component Rat := { c with top := asInputsCond c.top }

/-! ### The math of each mode -/

/-- Base math. -/
def baseMath : Math where
  vars := [
    flowCapVar, linkFlowCapVar, flowOutVar, flowInVar, flowExportVar, areaUseVar, sourceUseVar, sourceCapVar,
    storageCapVar, storageVar, unmetDemandVar, unusedSupplyVar]
  globals := [
    flowOutIncEff, flowInIncEff, costOperationVariable, costInvestmentFlowCap, costInvestmentStorageCap,
    costInvestmentSourceCap, costInvestmentAreaUse, costInvestment, costInvestmentAnnualised,
    costOperationFixed, costTotal]
  constraints := [
    flowCapacityPerStorageCapacityMin, flowCapacityPerStorageCapacityMax, sourceCapacityEqualsFlowCapacity,
    forceZeroAreaUse, areaUsePerFlowCapacity, areaUseCapacityPerLoc, flowCapacitySystemwideMax,
    flowCapacitySystemwideMin, balanceConversion, flowOutMax, flowOutMin, flowInMax, sourceMax, storageMax,
    storageDischargeDepthLimit, systemBalance, balanceDemand, balanceDemandMinUse, balanceSupplyNoStorage,
    balanceSupplyWithStorage, sourceAvailabilitySupply, balanceSupplyMinUse, balanceStorage, setStorageInitial,
    balanceTransmission, symmetricTransmission, exportBalance, rampingUp, rampingDown]
  objectives := [
    minCostOptimisation]
  postprocessed := [
    capacityFactor, systemwideCapacityFactor, totalGeneration, systemwideLevelisedCost, totalLevelisedCost,
    unmetSum, curtailment, totalCurtailment]
  checks := [
    mustHaveBase, distanceOnlyForTransmission, unboundedFlowCapCost, unboundedStorageCapCost,
    unboundedAreaUseCost, unboundedSourceUseCost, finiteSourceUse, allOrNothingLatLon, exportOnlyForOutflows,
    storageInitialMax, flowInForSupplyTech, flowOutForDemandTech, noStorageDischargeDepthWhenClustering,
    cyclicStorageNeedsInterCluster]

/-- Base math with `milp` as extra math. -/
def milpMath : Math where
  vars := [
    flowCapMilpVar, linkFlowCapVar, flowOutVar, flowInVar, flowExportVar, areaUseMilpVar, sourceUseVar,
    sourceCapMilpVar, storageCapMilpVar, storageVar, unmetDemandVar, unusedSupplyVar, purchasedUnitsVar,
    operatingUnitsVar, asyncFlowSwitchVar, availableFlowCapVar]
  globals := [
    costInvestmentPurchase, flowOutIncEff, flowInIncEff, costOperationVariable, costInvestmentFlowCap,
    costInvestmentStorageCap, costInvestmentSourceCap, costInvestmentAreaUse, costInvestmentMilp,
    costInvestmentAnnualised, costOperationFixed, costTotal]
  constraints := [
    flowCapacityPerStorageCapacityMin, flowCapacityPerStorageCapacityMax, sourceCapacityEqualsFlowCapacity,
    forceZeroAreaUse, areaUsePerFlowCapacity, areaUseCapacityPerLoc, flowCapacitySystemwideMax,
    flowCapacitySystemwideMinMilp, balanceConversion, flowOutMaxContinuous, flowOutMinContinuous,
    flowInMaxContinuous, sourceMax, storageMax, storageDischargeDepthLimit, systemBalance, balanceDemand,
    balanceDemandMinUse, balanceSupplyNoStorage, balanceSupplyWithStorage, sourceAvailabilitySupply,
    balanceSupplyMinUse, balanceStorage, setStorageInitial, balanceTransmission, symmetricTransmission,
    exportBalance, rampingUp, rampingDown, unitCommitmentMilp, flowOutMaxMilp, flowInMaxMilp, flowOutMinMilp,
    storageCapacityUnitsMilp, flowCapacityUnitsMilp, flowCapacityMaxPurchaseMilp,
    storageCapacityMaxPurchaseMilp, unitCapacityMaxSystemwideMilp, unitCapacityMinSystemwideMilp,
    asyncFlowInMilp, asyncFlowOutMilp, availableFlowCapContinuous, availableFlowCapBinary,
    availableFlowCapMaxBinaryContinuousSwitch, flowCapacityMinimum, storageCapacityMinimum, areaUseMinimum,
    sourceCapacityMinimum]
  objectives := [
    minCostOptimisation]
  postprocessed := [
    capacityFactor, systemwideCapacityFactor, totalGeneration, systemwideLevelisedCost, totalLevelisedCost,
    unmetSum, curtailment, totalCurtailment]
  checks := [
    mustHaveBase, distanceOnlyForTransmission, unboundedFlowCapCost, unboundedStorageCapCost,
    unboundedAreaUseCost, unboundedSourceUseCost, finiteSourceUse, allOrNothingLatLon, exportOnlyForOutflows,
    storageInitialMax, flowInForSupplyTech, flowOutForDemandTech, noStorageDischargeDepthWhenClustering,
    cyclicStorageNeedsInterCluster, distanceOnlyForTransmissionMilp, conflictingFlowCaps,
    unitCommitmentOnlyForUnits, conflictingStorageCaps]

/-- Operate mode. -/
def operateMath : Math where
  vars := [
    flowOutVar, flowInVar, flowExportVar, sourceUseVar, storageVar, unmetDemandVar, unusedSupplyVar]
  globals := [
    flowOutIncEff, flowInIncEff, costOperationVariable, costOperate]
  constraints := [
    balanceConversion, flowOutMax, flowOutMin, flowInMax, sourceMax, storageMax, storageDischargeDepthLimit,
    systemBalance, balanceDemand, balanceDemandMinUse, balanceSupplyNoStorage, balanceSupplyWithStorage,
    sourceAvailabilitySupply, balanceSupplyMinUse, balanceStorage, setStorageInitial, balanceTransmission,
    exportBalance, rampingUp, rampingDown].map asInputs
  objectives := [
    minCostOptimisation]
  postprocessed := [
    capacityFactor, systemwideCapacityFactor, totalGeneration, systemwideLevelisedCost, totalLevelisedCost,
    unmetSum, curtailment, totalCurtailment].map asInputs
  checks := [
    mustHaveBase, distanceOnlyForTransmission, unboundedFlowCapCost, unboundedStorageCapCost,
    unboundedAreaUseCost, unboundedSourceUseCost, finiteSourceUse, allOrNothingLatLon, exportOnlyForOutflows,
    storageInitialMax, flowInForSupplyTech, flowOutForDemandTech, noStorageDischargeDepthWhenClustering,
    cyclicStorageNeedsInterCluster, operateModeCyclicStorage]

/-- SPORES mode. -/
def sporesMath : Math where
  vars := [
    flowCapVar, linkFlowCapVar, flowOutVar, flowInVar, flowExportVar, areaUseVar, sourceUseVar, sourceCapVar,
    storageCapVar, storageVar, unmetDemandVar, unusedSupplyVar]
  globals := [
    flowOutIncEff, flowInIncEff, costOperationVariable, costInvestmentFlowCap, costInvestmentStorageCap,
    costInvestmentSourceCap, costInvestmentAreaUse, costInvestment, costInvestmentAnnualised,
    costOperationFixed, costTotal]
  constraints := [
    flowCapacityPerStorageCapacityMin, flowCapacityPerStorageCapacityMax, sourceCapacityEqualsFlowCapacity,
    forceZeroAreaUse, areaUsePerFlowCapacity, areaUseCapacityPerLoc, flowCapacitySystemwideMax,
    flowCapacitySystemwideMin, balanceConversion, flowOutMax, flowOutMin, flowInMax, sourceMax, storageMax,
    storageDischargeDepthLimit, systemBalance, balanceDemand, balanceDemandMinUse, balanceSupplyNoStorage,
    balanceSupplyWithStorage, sourceAvailabilitySupply, balanceSupplyMinUse, balanceStorage, setStorageInitial,
    balanceTransmission, symmetricTransmission, exportBalance, rampingUp, rampingDown, totalSystemCostMax]
  objectives := [
    minCostOptimisation, minSpores]
  postprocessed := [
    capacityFactor, systemwideCapacityFactor, totalGeneration, systemwideLevelisedCost, totalLevelisedCost,
    unmetSum, curtailment, totalCurtailment, sporesScoreCumulative, sporesBaselineCostTracked]
  checks := [
    mustHaveBase, distanceOnlyForTransmission, unboundedFlowCapCost, unboundedStorageCapCost,
    unboundedAreaUseCost, unboundedSourceUseCost, finiteSourceUse, allOrNothingLatLon, exportOnlyForOutflows,
    storageInitialMax, flowInForSupplyTech, flowOutForDemandTech, noStorageDischargeDepthWhenClustering,
    cyclicStorageNeedsInterCluster]

/-- Base math with `storage_inter_cluster` as extra math. -/
def interClusterMath : Math where
  vars := [
    flowCapVar, linkFlowCapVar, flowOutVar, flowInVar, flowExportVar, areaUseVar, sourceUseVar, sourceCapVar,
    storageCapVar, storageIntraVar, unmetDemandVar, unusedSupplyVar, storageInterClusterVar,
    storageIntraClusterMaxVar, storageIntraClusterMinVar]
  globals := [
    flowOutIncEff, flowInIncEff, costOperationVariable, costInvestmentFlowCap, costInvestmentStorageCap,
    costInvestmentSourceCap, costInvestmentAreaUse, costInvestment, costInvestmentAnnualised,
    costOperationFixed, costTotal]
  constraints := [
    flowCapacityPerStorageCapacityMin, flowCapacityPerStorageCapacityMax, sourceCapacityEqualsFlowCapacity,
    forceZeroAreaUse, areaUsePerFlowCapacity, areaUseCapacityPerLoc, flowCapacitySystemwideMax,
    flowCapacitySystemwideMin, balanceConversion, flowOutMax, flowOutMin, flowInMax, sourceMax,
    storageDischargeDepthLimit, systemBalance, balanceDemand, balanceDemandMinUse, balanceSupplyNoStorage,
    balanceSupplyWithStorageIntra, sourceAvailabilitySupply, balanceSupplyMinUse, balanceStorageIntra,
    setStorageInitialInter, balanceTransmission, symmetricTransmission, exportBalance, rampingUp, rampingDown,
    storageIntraMax, storageIntraMin, storageInterMax, storageInterMin, balanceStorageInter]
  objectives := [
    minCostOptimisation]
  postprocessed := [
    capacityFactor, systemwideCapacityFactor, totalGeneration, systemwideLevelisedCost, totalLevelisedCost,
    unmetSum, curtailment, totalCurtailment]
  checks := [
    mustHaveBase, distanceOnlyForTransmission, unboundedFlowCapCost, unboundedStorageCapCost,
    unboundedAreaUseCost, unboundedSourceUseCost, finiteSourceUse, allOrNothingLatLon, exportOnlyForOutflows,
    storageInitialMax, flowInForSupplyTech, flowOutForDemandTech, noStorageDischargeDepthWhenClustering]

end MathText
end Calliope
