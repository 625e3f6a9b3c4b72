import Verif.Spec.Assemble
import Verif.Spec.MathText

/-!
# Specification: operate mode with `milp` as extra math
-/

namespace Calliope
namespace MathText

open BaseMath Expr Build

/-- The component, with capacities as inputs in all its conditions. -/
def allAsInputs (c : Component Rat) : Component Rat where
  foreach := c.foreach
  top := asInputsCond c.top
  defn := { c.defn with
    equations := c.defn.equations.map (fun p => (asInputsCond p.1, p.2))
    subs := c.defn.subs.map (fun p => (p.1, p.2.map (fun q => (asInputsCond q.1, q.2))))
    slices := c.defn.slices.map (fun p => (p.1, p.2.map (fun q => (asInputsCond q.1, q.2)))) }

/-- The variable, with capacities as inputs. -/
def varAsInputs (v : Variable Rat) : Variable Rat := { v with top := asInputsCond v.top }

/-- Constraints of `milp.yaml` that limit capacities: nothing but capacities and limits stands in them. -/
def capacityLimits : List (Component Rat) := [
    flowCapacityMaxPurchaseMilp, storageCapacityMaxPurchaseMilp, flowCapacityMinimum, storageCapacityMinimum,
    areaUseMinimum, sourceCapacityMinimum].map allAsInputs

/-- Operate mode with `milp` as extra math. -/
def operateMilpMath : Math where
  vars := [
    flowOutVar, flowInVar, flowExportVar, sourceUseVar, storageVar, unmetDemandVar, unusedSupplyVar,
    operatingUnitsVar, asyncFlowSwitchVar, availableFlowCapVar].map varAsInputs
  globals := [
    flowOutIncEff, flowInIncEff, costOperationVariable, costOperate]
  constraints := [
    balanceConversion, flowOutMaxContinuous, flowOutMinContinuous, flowInMaxContinuous, sourceMax, storageMax,
    storageDischargeDepthLimit, systemBalance, balanceDemand, balanceDemandMinUse, balanceSupplyNoStorage,
    balanceSupplyWithStorage, sourceAvailabilitySupply, balanceSupplyMinUse, balanceStorage, setStorageInitial,
    balanceTransmission, exportBalance, rampingUp, rampingDown, unitCommitmentMilp, flowOutMaxMilp, flowInMaxMilp,
    flowOutMinMilp, flowCapacityMaxPurchaseMilp, storageCapacityMaxPurchaseMilp, asyncFlowInMilp, asyncFlowOutMilp,
    availableFlowCapContinuous, availableFlowCapBinary, availableFlowCapMaxBinaryContinuousSwitch,
    flowCapacityMinimum, storageCapacityMinimum, areaUseMinimum, sourceCapacityMinimum].map allAsInputs
  objectives := [
    minCostOptimisation]
  postprocessed := [
    capacityFactor, systemwideCapacityFactor, totalGeneration, systemwideLevelisedCost, totalLevelisedCost,
    unmetSum, curtailment, totalCurtailment].map asInputs
  checks := [
    mustHaveBase, distanceOnlyForTransmission, unboundedFlowCapCost, unboundedStorageCapCost,
    unboundedAreaUseCost, unboundedSourceUseCost, finiteSourceUse, allOrNothingLatLon, exportOnlyForOutflows,
    storageInitialMax, flowInForSupplyTech, flowOutForDemandTech, noStorageDischargeDepthWhenClustering,
    cyclicStorageNeedsInterCluster, operateModeCyclicStorage, distanceOnlyForTransmissionMilp, conflictingFlowCaps,
    unitCommitmentOnlyForUnits, conflictingStorageCaps]

end MathText
end Calliope
