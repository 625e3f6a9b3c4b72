import Verif.Props.DemoVars
import Verif.Props.Limits
import Verif.Model.BaseMath

/-!
# Small models with limits on flows

`base`: a supply technology `pv` that exports and a battery `bat`, at the node `a`.
`units`: supply technologies with integer dispatch, `coal` with units of a given size and `gas` without, and a demand.
-/

namespace Calliope
namespace BaseMath

open Grid Infix Expr Expand Build Where

namespace LimitDemo

open Mini

def ntc : List String := ["nodes", "techs", "carriers"]
def ntct : List String := ["nodes", "techs", "carriers", "timesteps"]
def ntt : List String := ["nodes", "techs", "timesteps"]
def nt : List String := ["nodes", "techs"]

/-- `carrier_in`, `carrier_out` and the like. -/
def carries (n : String) (l : List (List Label)) : String × Input := flag n ntc l

def baseParams : List ((String × List String × (List Label → Rat)) × (String × Input)) :=
  [param "flow_cap_min" ["techs"] [] 0, param "flow_cap_max" ["techs"] [(["pv"], 4), (["bat"], 5)] 1000,
   param "export_min" ["techs"] [] 0, param "export_max" ["techs"] [] 1000,
   param "source_cap_min" ["techs"] [] 0, param "source_cap_max" ["techs"] [] 1000,
   param "storage_cap_min" ["techs"] [] 0, param "storage_cap_max" ["techs"] [] 1000,
   param "storage_discharge_depth" ["techs"] [(["bat"], 1 / 3)] 0,
   param "flow_out_parasitic_eff" ["techs"] [(["pv"], 9 / 10)] 1,
   param "flow_out_min_relative" ["techs", "timesteps"] [(["pv", "t0"], 1 / 2)] 0,
   param "timestep_resolution" ["timesteps"] [(["t0"], 2), (["t1"], 3)] 1]

def baseResults : List ((String × List String × (List Label → Rat)) × (String × Arr Bool)) :=
  [result "flow_cap" ntc [(["a", "pv", "e"], 4), (["a", "bat", "e"], 2), (["a", "spare", "e"], 0)],
   result "storage_cap" nt [(["a", "bat"], 3)],
   result "source_cap" nt [(["a", "pv"], 5), (["a", "spare"], 0)],
   result "flow_out" ntct [(["a", "pv", "e", "t0"], 36 / 5), (["a", "pv", "e", "t1"], 0), (["a", "bat", "e", "t0"], 0),
     (["a", "bat", "e", "t1"], 2), (["a", "spare", "e", "t0"], 0), (["a", "spare", "e", "t1"], 0)],
   result "flow_in" ntct [(["a", "bat", "e", "t0"], 3), (["a", "bat", "e", "t1"], 0)],
   result "flow_export" ntct [(["a", "pv", "e", "t0"], 1), (["a", "pv", "e", "t1"], 0)],
   result "source_use" ntt [(["a", "pv", "t0"], 8), (["a", "pv", "t1"], 0), (["a", "spare", "t0"], 0),
     (["a", "spare", "t1"], 0)],
   result "storage" ntt [(["a", "bat", "t0"], 3), (["a", "bat", "t1"], 1)]]

def base : Mini where
  labels := [("nodes", ["a"]), ("techs", ["pv", "bat", "spare"]), ("carriers", ["e"]), ("timesteps", ["t0", "t1"])]
  data := baseParams.map Prod.fst ++ baseResults.map Prod.fst
  lookups := []
  inputs := baseParams.map Prod.snd ++
    [text "base_tech" ["techs"] [(["pv"], "supply"), (["bat"], "storage"), (["spare"], "supply")] .nan,
     carries "carrier_out" [["a", "pv", "e"], ["a", "bat", "e"], ["a", "spare", "e"]], carries "carrier_in" [["a", "bat", "e"]],
     carries "carrier_export" [["a", "pv", "e"]]]
  results := baseResults.map Prod.snd
  along := ntc
  items := [["a", "pv", "e"], ["a", "bat", "e"], ["a", "spare", "e"]]

theorem base_ok : base.ok = true := by decide +kernel

def plant : Plant base.W base.E where
  out := base.quantity "flow_out"
  inn := base.quantity "flow_in"
  exp := base.quantity "flow_export"
  source := base.quantity "source_use"
  level := base.quantity "storage"
  cap := base.quantity "flow_cap"
  sourceCap := base.quantity "source_cap"
  storageCap := base.quantity "storage_cap"
  hours := base.quantity "timestep_resolution"
  parasitic := base.quantity "flow_out_parasitic_eff"
  isOut := chooses_ok (v := flowOutVar) (by decide +kernel)
  isInn := chooses_ok (v := flowInVar) (by decide +kernel)
  isExp := chooses_ok (v := flowExportVar) (by decide +kernel)
  isSource := chooses_ok (v := sourceUseVar) (by decide +kernel)
  isLevel := chooses_ok (v := storageVar) (by decide +kernel)
  isCap := .inl (chooses_ok (v := flowCapVar) (by decide +kernel))
  isSourceCap := .inl (chooses_ok (v := sourceCapVar) (by decide +kernel))
  isStorageCap := .inl (chooses_ok (v := storageCapVar) (by decide +kernel))
  isHours := has_ok (by decide +kernel)
  isParasitic := has_ok (by decide +kernel)
  capNonneg := nonneg_ok (by decide +kernel)
  hoursNonneg := nonneg_ok (by decide +kernel)
  parasiticNonneg := nonneg_ok (by decide +kernel)

theorem setting : Setting base.W base.E power := Mini.setting base_ok

/-- C78: `pv` in the first time step. -/
def noon : Point := base.point [("techs", "pv"), ("timesteps", "t0")]
theorem noon_valid : Valid base.W noon := valid_point base_ok (by decide)

example : plant.out noon ≤ plant.cap noon * plant.hours noon * plant.parasitic noon :=
  (C78_outflow setting traverses plant (con_ok (c := flowOutMax) (by decide +kernel)) noon_valid
    (con_holds (by decide +kernel) noon_valid)).2
theorem noon_outflow : ItemOf base.W (flowOutVar (V := Rat)) noon :=
  (C79_exists plant.isOut noon_valid).1 ⟨_, rfl, by decide +kernel⟩

/-- At least half of its capacity has to be used. -/
example : base.quantity "flow_out_min_relative" noon * (plant.cap noon * plant.hours noon) ≤ plant.out noon :=
  C78_least_outflow setting traverses plant (has_ok (by decide +kernel)) (within_ok (by decide +kernel))
    (con_ok (c := flowOutMin) (by decide +kernel)) noon_valid (con_holds (by decide +kernel) noon_valid)
    noon_outflow (by decide +kernel)
/-- It runs at its limit. -/
example : plant.out noon = 36 / 5 ∧ plant.cap noon * plant.hours noon * plant.parasitic noon = 36 / 5 := by
  decide +kernel
example : plant.exp noon ≤ plant.out noon :=
  C78_export setting traverses plant (con_ok (c := exportBalance) (by decide +kernel)) noon_valid
    (con_holds (by decide +kernel) noon_valid)
example : plant.source noon ≤ plant.hours noon * plant.sourceCap noon :=
  (C78_source setting traverses plant (con_ok (c := sourceMax) (by decide +kernel)) noon_valid
    (con_holds (by decide +kernel) noon_valid) (by decide +kernel)).2
example : plant.exp noon = 1 ∧ plant.source noon = 8 ∧ plant.hours noon * plant.sourceCap noon = 10 := by decide +kernel

/-- The battery, in the second time step. -/
def night : Point := base.point [("techs", "bat"), ("timesteps", "t1")]
theorem night_valid : Valid base.W night := valid_point base_ok (by decide)

theorem night_storage : ItemOf base.W (storageVar (V := Rat)) night :=
  (C79_exists plant.isLevel night_valid).1 ⟨_, rfl, by decide +kernel⟩

example : plant.inn night ≤ plant.cap night * plant.hours night :=
  (C78_inflow setting traverses plant (con_ok (c := flowInMax) (by decide +kernel)) night_valid
    (con_holds (by decide +kernel) night_valid)).2
example : plant.level night ≤ plant.storageCap night :=
  (C78_storage setting traverses plant (con_ok (c := storageMax) (by decide +kernel)) night_valid
    (con_holds (by decide +kernel) night_valid) (by decide +kernel)).2
example : base.quantity "storage_discharge_depth" night * plant.storageCap night ≤ plant.level night :=
  C78_depth setting traverses plant (has_ok (by decide +kernel)) (within_ok (by decide +kernel))
    (con_ok (c := storageDischargeDepthLimit) (by decide +kernel)) night_valid
    (con_holds (by decide +kernel) night_valid) night_storage (by decide +kernel)
example : plant.level night = 1 ∧ plant.storageCap night = 3 := by decide +kernel
/-- A technology without capacity. -/
def spare : Point := base.point [("techs", "spare")]
theorem spare_valid : Valid base.W spare := valid_point base_ok (by decide)
example : plant.out spare = 0 ∧ plant.inn spare = 0 :=
  C78_idle setting traverses plant (con_ok (c := flowOutMax) (by decide +kernel))
    (con_ok (c := flowInMax) (by decide +kernel)) spare_valid (con_holds (by decide +kernel) spare_valid)
    (con_holds (by decide +kernel) spare_valid) (by decide +kernel)

/-! ### Integer units -/

def unitParams : List ((String × List String × (List Label → Rat)) × (String × Input)) :=
  [param "flow_cap_max" ["techs"] [(["gas"], 1)] 1000, param "export_min" ["techs"] [] 0,
   param "export_max" ["techs"] [] 1000, param "source_cap_max" ["techs"] [] 1000,
   param "storage_cap_max" ["techs"] [] 1000, param "area_use_max" ["techs"] [] 1000,
   param "purchased_units_min" ["techs"] [] 0,
   param "purchased_units_max" ["techs"] [(["coal"], 5), (["gas"], 1)] 1000,
   param "flow_cap_per_unit" ["techs"] [(["coal"], 2)] 0,
   param "flow_out_parasitic_eff" ["techs"] [] 1, param "flow_out_eff" ["techs"] [] 1,
   param "flow_in_eff" ["techs"] [] 1, param "source_eff" ["techs"] [] 1, param "bigM" [] [] 1000000,
   param "sink_use_equals" ["techs", "timesteps"] [(["load", "t0"], 104), (["load", "t1"], 0)] 0,
   param "timestep_resolution" ["timesteps"] [] 1]

def unitResults : List ((String × List String × (List Label → Rat)) × (String × Arr Bool)) :=
  [result "flow_cap" ntc [(["a", "coal", "e"], 6), (["a", "gas", "e"], 1), (["a", "load", "e"], 200)],
   result "link_flow_cap" ["techs"] [],
   result "area_use" nt [],
   result "storage_cap" nt [],
   result "source_cap" nt [(["a", "coal"], 200), (["a", "gas"], 200)],
   result "flow_out" ntct [(["a", "coal", "e", "t0"], 4), (["a", "coal", "e", "t1"], 0),
     (["a", "gas", "e", "t0"], 100), (["a", "gas", "e", "t1"], 0)],
   result "flow_in" ntct [(["a", "load", "e", "t0"], 104), (["a", "load", "e", "t1"], 0)],
   result "flow_out_inc_eff" ntct [(["a", "coal", "e", "t0"], 4), (["a", "coal", "e", "t1"], 0),
     (["a", "gas", "e", "t0"], 100), (["a", "gas", "e", "t1"], 0)],
   result "flow_in_inc_eff" ntct [(["a", "load", "e", "t0"], 104), (["a", "load", "e", "t1"], 0)],
   result "flow_export" ntct [],
   result "source_use" ntt [(["a", "coal", "t0"], 4), (["a", "coal", "t1"], 0), (["a", "gas", "t0"], 100),
     (["a", "gas", "t1"], 0)],
   result "storage" ntt [],
   result "unmet_demand" ["nodes", "carriers", "timesteps"] [],
   result "unused_supply" ["nodes", "carriers", "timesteps"] [],
   result "purchased_units" nt [(["a", "coal"], 3), (["a", "gas"], 1)],
   result "operating_units" ntt [(["a", "coal", "t0"], 2), (["a", "coal", "t1"], 0), (["a", "gas", "t0"], 0),
     (["a", "gas", "t1"], 0)],
   result "available_flow_cap" ntct [(["a", "gas", "e", "t0"], 0), (["a", "gas", "e", "t1"], 0)],
   result "async_flow_switch" ntt []]

def units : Mini where
  labels := [("nodes", ["a"]), ("techs", ["coal", "gas", "load"]), ("carriers", ["e"]), ("timesteps", ["t0", "t1"])]
  data := unitParams.map Prod.fst ++ unitResults.map Prod.fst
  lookups := []
  inputs := unitParams.map Prod.snd ++
    [text "base_tech" ["techs"] [(["coal"], "supply"), (["gas"], "supply"), (["load"], "demand")] .nan,
     text "cap_method" ["techs"] [(["coal"], "integer"), (["gas"], "integer")] (.str "continuous"),
     text "sink_unit" ["techs"] [] (.str "absolute"), text "source_unit" ["techs"] [] (.str "absolute"),
     flag "integer_dispatch" ["techs"] [["coal"], ["gas"]],
     carries "carrier_out" [["a", "coal", "e"], ["a", "gas", "e"]], carries "carrier_in" [["a", "load", "e"]]]
  results := unitResults.map Prod.snd
  along := ntc
  items := [["a", "coal", "e"], ["a", "gas", "e"], ["a", "load", "e"]]
  config := [("ensure_feasibility", .bool false)]

theorem units_ok : units.ok = true := by decide +kernel

/-- All constraints of the base math with integer units. -/
def constraints : List (Component Rat) :=
  [flowCapacityPerStorageCapacityMin, flowCapacityPerStorageCapacityMax, sourceCapacityEqualsFlowCapacity,
   forceZeroAreaUse, areaUsePerFlowCapacity, areaUseCapacityPerLoc, flowCapacitySystemwideMax,
   flowCapacitySystemwideMinMilp, balanceConversion, flowOutMaxContinuous, flowOutMinContinuous, flowInMaxContinuous,
   sourceMax, storageMax, storageDischargeDepthLimit, systemBalance, balanceDemand, balanceDemandMinUse,
   balanceSupplyNoStorage, balanceSupplyWithStorage, sourceAvailabilitySupply, balanceSupplyMinUse, balanceStorage,
   setStorageInitial, balanceTransmission, symmetricTransmission, exportBalance, rampingUp, rampingDown,
   unitCommitmentMilp, flowOutMaxMilp, flowInMaxMilp, flowOutMinMilp, storageCapacityUnitsMilp, flowCapacityUnitsMilp,
   flowCapacityMaxPurchaseMilp, storageCapacityMaxPurchaseMilp, unitCapacityMaxSystemwideMilp,
   unitCapacityMinSystemwideMilp, asyncFlowInMilp, asyncFlowOutMilp, availableFlowCapContinuous,
   availableFlowCapBinary, availableFlowCapMaxBinaryContinuousSwitch, flowCapacityMinimum, storageCapacityMinimum,
   areaUseMinimum, sourceCapacityMinimum]

/-- Their variables. -/
def decisions : List (Variable Rat) :=
  [flowCapMilpVar, linkFlowCapVar, flowOutVar, flowInVar, flowExportVar, areaUseMilpVar, sourceUseVar, sourceCapMilpVar,
   storageCapMilpVar, storageVar, unmetDemandVar, unusedSupplyVar, purchasedUnitsVar, operatingUnitsVar,
   asyncFlowSwitchVar, availableFlowCapVar]

theorem units_built : ∀ c ∈ constraints, isOk (buildConstraint units.W units.E List.dedup c) = true := by decide +kernel

theorem units_hold : ∀ c ∈ constraints, units.holds c = true := by decide +kernel

theorem units_choose : ∀ v ∈ decisions, units.chooses v = true := by decide +kernel

theorem unit_setting : Setting units.W units.E power := Mini.setting units_ok

def unitPlant : Plant units.W units.E where
  out := units.quantity "flow_out"
  inn := units.quantity "flow_in"
  exp := units.quantity "flow_export"
  source := units.quantity "source_use"
  level := units.quantity "storage"
  cap := units.quantity "flow_cap"
  sourceCap := units.quantity "source_cap"
  storageCap := units.quantity "storage_cap"
  hours := units.quantity "timestep_resolution"
  parasitic := units.quantity "flow_out_parasitic_eff"
  isOut := chooses_ok (v := flowOutVar) (units_choose _ (by simp [decisions]))
  isInn := chooses_ok (v := flowInVar) (units_choose _ (by simp [decisions]))
  isExp := chooses_ok (v := flowExportVar) (units_choose _ (by simp [decisions]))
  isSource := chooses_ok (v := sourceUseVar) (units_choose _ (by simp [decisions]))
  isLevel := chooses_ok (v := storageVar) (units_choose _ (by simp [decisions]))
  isCap := .inr (chooses_ok (v := flowCapMilpVar) (units_choose _ (by simp [decisions])))
  isSourceCap := .inr (chooses_ok (v := sourceCapMilpVar) (units_choose _ (by simp [decisions])))
  isStorageCap := .inr (chooses_ok (v := storageCapMilpVar) (units_choose _ (by simp [decisions])))
  isHours := has_ok (by decide +kernel)
  isParasitic := has_ok (by decide +kernel)
  capNonneg := nonneg_ok (by decide +kernel)
  hoursNonneg := nonneg_ok (by decide +kernel)
  parasiticNonneg := nonneg_ok (by decide +kernel)

def unitData : Units units.W units.E where
  bought := units.quantity "purchased_units"
  running := units.quantity "operating_units"
  perUnit := units.quantity "flow_cap_per_unit"
  isBought := chooses_ok (v := purchasedUnitsVar) (units_choose _ (by simp [decisions]))
  isRunning := chooses_ok (v := operatingUnitsVar) (units_choose _ (by simp [decisions]))
  isPerUnit := has_ok (by decide +kernel)
  perUnitNonneg := nonneg_ok (by decide +kernel)

theorem unit_con {c : Component Rat} (hc : c ∈ constraints) :
    buildConstraint units.W units.E List.dedup c = .ok (units.con c) := con_ok (units_built c hc)
theorem unit_sat {c : Component Rat} (hc : c ∈ constraints) {ρ : Point} (hρ : Valid units.W ρ) :
    Satisfied (units.con c) ρ := con_holds (units_hold c hc) hρ

/-- C78_units, C78_milp_partial: two of the three coal units run. -/
def coal : Point := units.point [("techs", "coal"), ("timesteps", "t0")]
theorem coal_valid : Valid units.W coal := valid_point units_ok (by decide)

theorem size_within : Within units.W ["nodes", "techs", "carriers"] ["flow_cap_per_unit"] :=
  within_ok (by decide +kernel)

example : unitPlant.out coal ≤ unitData.running coal * unitData.perUnit coal * unitPlant.hours coal *
    unitPlant.parasitic coal :=
  (C78_units unit_setting traverses unitPlant unitData (unit_con (by simp [constraints]))
    (unit_con (by simp [constraints])) (unit_con (by simp [constraints])) (unit_con (by simp [constraints])) size_within
    coal_valid (unit_sat (by simp [constraints]) coal_valid) (unit_sat (by simp [constraints]) coal_valid)
    (unit_sat (by simp [constraints]) coal_valid) (unit_sat (by simp [constraints]) coal_valid)
    ⟨_, rfl, by decide +kernel⟩ (by decide +kernel)).1.1
example : unitPlant.out coal = 4 ∧ unitData.running coal = 2 ∧ unitData.bought coal = 3 ∧ unitPlant.cap coal = 6 := by
  decide +kernel
example : unitPlant.out coal ≤ unitPlant.cap coal * unitPlant.hours coal * unitPlant.parasitic coal :=
  (C78_milp_partial unit_setting traverses unitPlant unitData (unit_con (by simp [constraints]))
    (unit_con (by simp [constraints])) (unit_con (by simp [constraints])) (unit_con (by simp [constraints]))
    (unit_con (by simp [constraints])) (unit_con (by simp [constraints])) size_within
    coal_valid (unit_sat (by simp [constraints]) coal_valid) (unit_sat (by simp [constraints]) coal_valid)
    (unit_sat (by simp [constraints]) coal_valid) (unit_sat (by simp [constraints]) coal_valid)
    (unit_sat (by simp [constraints]) coal_valid) (unit_sat (by simp [constraints]) coal_valid)
    (fun _ => by decide +kernel)).1

/-- C79: the number of coal units is an item, a whole number and within its bounds; there is none for the load. -/
theorem coal_item : ItemOf units.W (purchasedUnitsVar (V := Rat)) coal :=
  (C79_exists unitData.isBought coal_valid).1 ⟨_, rfl, by decide +kernel⟩
example : ∃ k : Int, unitData.bought coal = k := ((C79_values unitData.isBought coal_valid).1 coal_item).2.2 rfl
example : ∃ b c, buildVariable units.W units.E (purchasedUnitsVar (V := Rat)) = .ok b ∧ b.at coal = some c ∧
    c.lower = boundAt units.E (purchasedUnitsVar (V := Rat)).lower coal := by
  obtain ⟨b, h⟩ := unitData.isBought
  obtain ⟨c, h1, h2, _⟩ := (C79_items h.built coal_valid).1 coal_item
  exact ⟨b, c, h.built, h1, h2⟩
example : ¬ ItemOf units.W (purchasedUnitsVar (V := Rat)) (units.point [("techs", "load")]) := by
  intro h
  obtain ⟨a, ha, hv⟩ := (C79_exists unitData.isBought (valid_point units_ok (by decide))).2 h
  cases ha
  revert hv
  decide +kernel

def gas : Point := units.point [("techs", "gas"), ("timesteps", "t0")]
theorem gas_valid : Valid units.W gas := valid_point units_ok (by decide)

/-- C78_unlimited -/
example : (units.con flowOutMaxMilp).at gas = none ∧ (units.con flowInMaxMilp).at gas = none ∧
    (units.con flowOutMaxContinuous).at gas = none ∧ (units.con flowInMaxContinuous).at gas = none :=
  C78_unlimited unit_setting traverses unitData (unit_con (by simp [constraints]))
    (unit_con (by simp [constraints])) (unit_con (by simp [constraints])) (unit_con (by simp [constraints])) size_within
    gas_valid ⟨_, rfl, by decide +kernel⟩ (by decide +kernel)

/-- C78 is false of the code: all constraints hold in this solution and all variables are within their bounds, but a
technology of capacity 1, with no unit running, gives out 100 in one hour. -/
theorem C78_outflow_above_capacity :
    (∀ c ∈ constraints, ∃ b, buildConstraint units.W units.E List.dedup c = .ok b ∧
      ∀ ρ, Valid units.W ρ → Satisfied b ρ) ∧
    (∀ v ∈ decisions, Solves units.W units.E v (units.quantity v.name)) ∧ Valid units.W gas ∧
    units.quantity "flow_cap" gas = 1 ∧ units.quantity "operating_units" gas = 0 ∧
    units.quantity "timestep_resolution" gas = 1 ∧ units.quantity "flow_out" gas = 100 :=
  ⟨fun _ hc => ⟨_, unit_con hc, fun _ hρ => unit_sat hc hρ⟩, fun v hv => chooses_ok (units_choose v hv), gas_valid,
    by decide +kernel⟩


end LimitDemo
end BaseMath
end Calliope
