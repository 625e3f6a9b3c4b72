import Verif.Props.LimitDemo
import Verif.Props.Units

/-!
# Examples for C80 and C83
-/

namespace Calliope
namespace BaseMath

open Grid Infix Expr Expand Build Where Mini

namespace UnitDemo

open LimitDemo

def params : List ((String × List String × (List Label → Rat)) × (String × Input)) :=
  [param "flow_cap_max" ["techs"] [(["gas"], 8), (["bat"], 10)] 1000,
   param "flow_cap_min" ["techs"] [(["bat"], 4)] 0, param "export_min" ["techs"] [] 0,
   param "export_max" ["techs"] [] 1000, param "source_cap_max" ["techs"] [] 1000,
   param "storage_cap_max" ["techs"] [(["bat"], 20)] 1000, param "area_use_max" ["techs"] [] 1000,
   param "storage_cap_min" ["techs"] [(["bat"], 6)] 0, param "area_use_min" ["techs"] [(["gas"], 2)] 0,
   param "source_cap_min" ["techs"] [(["gas"], 50)] 0, param "storage_cap_per_unit" ["techs"] [(["bat"], 10)] 1000,
   param "purchased_units_min" ["techs"] [] 0,
   param "purchased_units_max" ["techs"] [(["bat"], 1), (["gas"], 1)] 1000,
   param "purchased_units_max_systemwide" ["techs"] [(["gas"], 1)] 1000,
   param "purchased_units_min_systemwide" ["techs"] [(["gas"], 1), (["wind"], 3)] 0,
   param "flow_cap_min_systemwide" ["techs"] [(["gas"], 2)] 0,
   param "flow_cap_per_unit" ["techs"] [] 1000,
   param "flow_out_min_relative" ["techs", "timesteps"] [(["gas", "t0"], 1 / 2), (["gas", "t1"], 1 / 2),
     (["bat", "t1"], 1 / 2)] 0,
   param "storage_loss" ["techs"] [] 0, param "storage_initial" ["techs"] [] 0,
   param "flow_out_parasitic_eff" ["techs"] [] 1, param "flow_out_eff" ["techs"] [] 1,
   param "flow_in_eff" ["techs"] [] 1, param "source_eff" ["techs"] [] 1, param "bigM" [] [] 1000000,
   param "sink_use_equals" ["techs", "timesteps"] [(["load", "t0"], 2), (["load", "t1"], 4)] 0,
   param "timestep_resolution" ["timesteps"] [] 1]

def results : List ((String × List String × (List Label → Rat)) × (String × Arr Bool)) :=
  [result "flow_cap" ntc [(["a", "bat", "e"], 5), (["b", "bat", "e"], 0), (["a", "gas", "e"], 6),
     (["a", "wind", "e"], 0), (["b", "wind", "e"], 0), (["a", "load", "e"], 200)],
   result "link_flow_cap" ["techs"] [],
   result "area_use" nt [(["a", "gas"], 3)],
   result "storage_cap" nt [(["a", "bat"], 10), (["b", "bat"], 0)],
   result "source_cap" nt [(["a", "gas"], 200), (["a", "wind"], 0), (["b", "wind"], 0)],
   result "flow_out" ntct [(["a", "gas", "e", "t0"], 6), (["a", "gas", "e", "t1"], 0),
     (["a", "bat", "e", "t0"], 0), (["a", "bat", "e", "t1"], 4), (["b", "bat", "e", "t0"], 0), (["b", "bat", "e", "t1"], 0),
     (["a", "wind", "e", "t0"], 0), (["a", "wind", "e", "t1"], 0), (["b", "wind", "e", "t0"], 0),
     (["b", "wind", "e", "t1"], 0)],
   result "flow_in" ntct [(["a", "bat", "e", "t0"], 4), (["a", "bat", "e", "t1"], 0), (["b", "bat", "e", "t0"], 0),
     (["b", "bat", "e", "t1"], 0), (["a", "load", "e", "t0"], 2), (["a", "load", "e", "t1"], 4)],
   result "flow_out_inc_eff" ntct [(["a", "gas", "e", "t0"], 6), (["a", "gas", "e", "t1"], 0),
     (["a", "bat", "e", "t0"], 0), (["a", "bat", "e", "t1"], 4), (["b", "bat", "e", "t0"], 0), (["b", "bat", "e", "t1"], 0),
     (["a", "wind", "e", "t0"], 0), (["a", "wind", "e", "t1"], 0), (["b", "wind", "e", "t0"], 0),
     (["b", "wind", "e", "t1"], 0)],
   result "flow_in_inc_eff" ntct [(["a", "bat", "e", "t0"], 4), (["a", "bat", "e", "t1"], 0), (["b", "bat", "e", "t0"], 0),
     (["b", "bat", "e", "t1"], 0), (["a", "load", "e", "t0"], 2), (["a", "load", "e", "t1"], 4)],
   result "flow_export" ntct [],
   result "source_use" ntt [(["a", "gas", "t0"], 6), (["a", "gas", "t1"], 0), (["a", "wind", "t0"], 0),
     (["a", "wind", "t1"], 0), (["b", "wind", "t0"], 0), (["b", "wind", "t1"], 0)],
   result "storage" ntt [(["a", "bat", "t0"], 4), (["a", "bat", "t1"], 0), (["b", "bat", "t0"], 0),
     (["b", "bat", "t1"], 0)],
   result "unmet_demand" ["nodes", "carriers", "timesteps"] [],
   result "unused_supply" ["nodes", "carriers", "timesteps"] [],
   result "purchased_units" nt [(["a", "bat"], 1), (["b", "bat"], 0), (["a", "gas"], 1), (["a", "wind"], 0),
     (["b", "wind"], 0)],
   result "operating_units" ntt [(["a", "gas", "t0"], 1), (["a", "gas", "t1"], 0)],
   result "available_flow_cap" ntct [(["a", "gas", "e", "t0"], 6), (["a", "gas", "e", "t1"], 0)],
   result "async_flow_switch" ntt [(["a", "bat", "t0"], 0), (["a", "bat", "t1"], 1), (["b", "bat", "t0"], 0),
     (["b", "bat", "t1"], 0)]]

/-- A gas plant that runs in the first step, a battery at one of two nodes, and no wind turbines. -/
def model : Mini where
  labels := [("nodes", ["a", "b"]), ("techs", ["bat", "gas", "wind", "load"]), ("carriers", ["e"]),
    ("timesteps", ["t0", "t1"])]
  data := params.map Prod.fst ++ results.map Prod.fst
  lookups := []
  inputs := params.map Prod.snd ++
    [text "base_tech" ["techs"] [(["bat"], "storage"), (["gas"], "supply"), (["wind"], "supply"), (["load"], "demand")]
      .nan,
     text "cap_method" ["techs"] [(["bat"], "integer"), (["gas"], "integer"), (["wind"], "integer")]
      (.str "continuous"),
     text "sink_unit" ["techs"] [] (.str "absolute"), text "source_unit" ["techs"] [] (.str "absolute"),
     flag "integer_dispatch" ["techs"] [["gas"]], flag "force_async_flow" ["techs"] [["bat"]],
     flag "cyclic_storage" ["techs"] [["bat"]],
     carries "carrier_out" [["a", "bat", "e"], ["b", "bat", "e"], ["a", "gas", "e"], ["a", "wind", "e"],
       ["b", "wind", "e"]],
     carries "carrier_in" [["a", "bat", "e"], ["b", "bat", "e"], ["a", "load", "e"]]]
  results := results.map Prod.snd
  along := ntc
  items := [["a", "bat", "e"], ["b", "bat", "e"], ["a", "gas", "e"], ["a", "wind", "e"], ["b", "wind", "e"],
    ["a", "load", "e"]]
  config := [("ensure_feasibility", .bool false)]

theorem model_ok : model.ok = true := by decide +kernel
theorem all_built : ∀ c ∈ constraints, isOk (buildConstraint model.W model.E List.dedup c) = true := by decide +kernel
theorem all_hold : ∀ c ∈ constraints, model.holds c = true := by decide +kernel
theorem all_chosen : ∀ v ∈ decisions, model.chooses v = true := by decide +kernel

theorem setting : Setting model.W model.E power := Mini.setting model_ok

theorem con {c : Component Rat} (hc : c ∈ constraints) :
    buildConstraint model.W model.E List.dedup c = .ok (model.con c) := con_ok (all_built c hc)
theorem sat {c : Component Rat} (hc : c ∈ constraints) {ρ : Point} (hρ : Valid model.W ρ) :
    Satisfied (model.con c) ρ := con_holds (all_hold c hc) hρ

def plant : Plant model.W model.E where
  out := model.quantity "flow_out"
  inn := model.quantity "flow_in"
  exp := model.quantity "flow_export"
  source := model.quantity "source_use"
  level := model.quantity "storage"
  cap := model.quantity "flow_cap"
  sourceCap := model.quantity "source_cap"
  storageCap := model.quantity "storage_cap"
  hours := model.quantity "timestep_resolution"
  parasitic := model.quantity "flow_out_parasitic_eff"
  isOut := chooses_ok (v := flowOutVar) (all_chosen _ (by simp [decisions]))
  isInn := chooses_ok (v := flowInVar) (all_chosen _ (by simp [decisions]))
  isExp := chooses_ok (v := flowExportVar) (all_chosen _ (by simp [decisions]))
  isSource := chooses_ok (v := sourceUseVar) (all_chosen _ (by simp [decisions]))
  isLevel := chooses_ok (v := storageVar) (all_chosen _ (by simp [decisions]))
  isCap := .inr (chooses_ok (v := flowCapMilpVar) (all_chosen _ (by simp [decisions])))
  isSourceCap := .inr (chooses_ok (v := sourceCapMilpVar) (all_chosen _ (by simp [decisions])))
  isStorageCap := .inr (chooses_ok (v := storageCapMilpVar) (all_chosen _ (by simp [decisions])))
  isHours := has_ok (by decide +kernel)
  isParasitic := has_ok (by decide +kernel)
  capNonneg := nonneg_ok (by decide +kernel)
  hoursNonneg := nonneg_ok (by decide +kernel)
  parasiticNonneg := nonneg_ok (by decide +kernel)

def unitData : Units model.W model.E where
  bought := model.quantity "purchased_units"
  running := model.quantity "operating_units"
  perUnit := model.quantity "flow_cap_per_unit"
  isBought := chooses_ok (v := purchasedUnitsVar) (all_chosen _ (by simp [decisions]))
  isRunning := chooses_ok (v := operatingUnitsVar) (all_chosen _ (by simp [decisions]))
  isPerUnit := has_ok (by decide +kernel)
  perUnitNonneg := nonneg_ok (by decide +kernel)

def limits : UnitLimits model.W model.E where
  bigM := model.quantity "bigM"
  capMax := model.quantity "flow_cap_max"
  capMin := model.quantity "flow_cap_min"
  storageMax := model.quantity "storage_cap_max"
  totalMax := model.quantity "purchased_units_max_systemwide"
  totalMin := model.quantity "purchased_units_min_systemwide"
  capTotalMin := model.quantity "flow_cap_min_systemwide"
  share := model.quantity "flow_out_min_relative"
  isBigM := has_ok (by decide +kernel)
  isCapMax := has_ok (by decide +kernel)
  isCapMin := has_ok (by decide +kernel)
  isStorageMax := has_ok (by decide +kernel)
  isTotalMax := has_ok (by decide +kernel)
  isTotalMin := has_ok (by decide +kernel)
  isCapTotalMin := has_ok (by decide +kernel)
  isShare := has_ok (by decide +kernel)
  bigNonneg := nonneg_ok (by decide +kernel)
  capWithin := within_ok (by decide +kernel)
  storageWithin := within_ok (by decide +kernel)
  totalWithin := within_ok (by decide +kernel)
  capTotalWithin := within_ok (by decide +kernel)
  shareWithin := within_ok (by decide +kernel)

/-- The battery, in the first step: it charges, so it does not discharge. -/
def bat : Point := model.point [("nodes", "a"), ("techs", "bat"), ("timesteps", "t0")]
theorem bat_valid : Valid model.W bat := valid_point model_ok (by decide)

/-- C80_async, C80_cut -/
example : Still model.W plant.inn bat ∨ Still model.W plant.out bat :=
  C80_async setting traverses plant (chooses_ok (v := asyncFlowSwitchVar) (all_chosen _ (by simp [decisions])))
    limits.isBigM (within_ok (by decide +kernel)) (con (by simp [constraints])) (con (by simp [constraints])) bat_valid
    (sat (by simp [constraints]) bat_valid) (sat (by simp [constraints]) bat_valid) (by unfold Flag; decide +kernel)
example : plant.inn bat = 4 ∧ plant.out bat = 0 := by decide +kernel
example : sumOver model.E "carriers" plant.inn bat ≤ limits.bigM bat :=
  (C80_cut setting traverses plant (chooses_ok (v := asyncFlowSwitchVar) (all_chosen _ (by simp [decisions])))
    limits.isBigM (by decide +kernel) (within_ok (by decide +kernel)) (con (by simp [constraints]))
    (con (by simp [constraints])) bat_valid
    (sat (by simp [constraints]) bat_valid) (sat (by simp [constraints]) bat_valid) (by unfold Flag; decide +kernel)).1

/-- C83_capacity, C83_storage, C83_minimum: a battery is bought at `a` and none at `b`. -/
def none : Point := model.point [("nodes", "b"), ("techs", "bat"), ("timesteps", "t0")]
theorem none_valid : Valid model.W none := valid_point model_ok (by decide)
example : plant.cap none = 0 :=
  (C83_capacity setting traverses plant unitData limits (con (by simp [constraints])) none_valid
    (sat (by simp [constraints]) none_valid) (in_model none_valid ["b", "bat", "e"] (by decide +kernel) (by decide))
    ⟨_, rfl, by decide +kernel⟩).2.2 (by decide +kernel)
example : plant.cap bat ≤ limits.capMax bat * unitData.bought bat :=
  (C83_capacity setting traverses plant unitData limits (con (by simp [constraints])) bat_valid
    (sat (by simp [constraints]) bat_valid) (in_model bat_valid ["a", "bat", "e"] (by decide +kernel) (by decide))
    ⟨_, rfl, by decide +kernel⟩).1 (by decide +kernel)
example : plant.storageCap bat ≤ limits.storageMax bat * unitData.bought bat :=
  C83_storage setting traverses plant unitData limits (con (by simp [constraints])) bat_valid
    (sat (by simp [constraints]) bat_valid) (in_model bat_valid ["a", "bat", "e"] (by decide +kernel) (by decide))
    ⟨_, rfl, by decide +kernel⟩ (by decide +kernel)
example : limits.capMin bat * unitData.bought bat ≤ plant.cap bat :=
  (C83_minimum setting traverses plant unitData limits (con (by simp [constraints])) bat_valid
    (sat (by simp [constraints]) bat_valid) (in_model bat_valid ["a", "bat", "e"] (by decide +kernel) (by decide)) (by decide +kernel)).1
    ⟨_, rfl, by decide +kernel⟩
example : limits.capMin bat * unitData.bought bat = 4 ∧ limits.capMin none * unitData.bought none = 0 := by decide +kernel

/-- C83_storage_minimum, C83_storage_units: a battery stores at least 6 and exactly 10. -/
example : model.quantity "storage_cap_min" bat * unitData.bought bat ≤ plant.storageCap bat :=
  (C83_storage_minimum setting traverses plant unitData (has_ok (by decide +kernel)) (within_ok (by decide +kernel))
    (con (by simp [constraints])) bat_valid (sat (by simp [constraints]) bat_valid)
    (in_model bat_valid ["a", "bat", "e"] (by decide +kernel) (by decide)) (by decide +kernel)).1 ⟨_, rfl, by decide +kernel⟩
example : plant.storageCap bat = unitData.bought bat * model.quantity "storage_cap_per_unit" bat :=
  C83_storage_units setting traverses plant unitData (has_ok (by decide +kernel)) (within_ok (by decide +kernel))
    (con (by simp [constraints])) bat_valid (sat (by simp [constraints]) bat_valid) ⟨_, rfl, by decide +kernel⟩
    ⟨_, rfl, by decide +kernel⟩ (by decide +kernel)
example : model.quantity "storage_cap_min" bat = 6 ∧ plant.storageCap bat = 10 := by decide +kernel

/-- C83_least_continuous: in the second step the battery gives out at least half of what it could. -/
def batLater : Point := model.point [("nodes", "a"), ("techs", "bat"), ("timesteps", "t1")]
theorem later_valid : Valid model.W batLater := valid_point model_ok (by decide)
example : plant.cap batLater * plant.hours batLater * limits.share batLater ≤ plant.out batLater :=
  C83_least_continuous setting traverses plant limits unitData (con (by simp [constraints])) later_valid
    (sat (by simp [constraints]) later_valid)
    (in_model later_valid ["a", "bat", "e"] (by decide +kernel) (by decide))
    (by
      rintro ⟨a, ha, h⟩
      cases ha
      revert h
      decide +kernel)
    (by decide +kernel)
example : plant.cap batLater * plant.hours batLater * limits.share batLater = 5 / 2 ∧ plant.out batLater = 4 := by
  decide +kernel

/-- C83_total, C83_total_capacity, C83_available, C83_least, C83_area_minimum, C83_source_minimum: gas. -/
def gas : Point := model.point [("nodes", "a"), ("techs", "gas"), ("timesteps", "t0")]
theorem gas_valid : Valid model.W gas := valid_point model_ok (by decide)
example : sumOver model.E "nodes" unitData.bought gas ≤ limits.totalMax gas ∧
    limits.totalMin gas ≤ sumOver model.E "nodes" unitData.bought gas :=
  C83_total setting traverses unitData limits (con (by simp [constraints])) (con (by simp [constraints])) gas_valid
    (sat (by simp [constraints]) gas_valid) (sat (by simp [constraints]) gas_valid) ⟨_, rfl, by decide +kernel⟩
    (by decide +kernel)
example : limits.capTotalMin gas * sumOver model.E "nodes" unitData.bought gas ≤ sumOver model.E "nodes" plant.cap gas :=
  (C83_total_capacity setting traverses plant unitData limits (con (by simp [constraints])) gas_valid
    (sat (by simp [constraints]) gas_valid) (in_model gas_valid ["a", "gas", "e"] (by decide +kernel) (by decide)) (by decide +kernel)).1
    ⟨"a", by decide, _, rfl, by decide +kernel⟩
example : model.quantity "area_use_min" gas * unitData.bought gas ≤ model.quantity "area_use" gas :=
  (C83_area_minimum setting traverses unitData (chooses_ok (v := areaUseMilpVar) (all_chosen _ (by simp [decisions]))).decision
    (has_ok (by decide +kernel)) (within_ok (by decide +kernel)) (con (by simp [constraints])) gas_valid
    (sat (by simp [constraints]) gas_valid) (in_model gas_valid ["a", "gas", "e"] (by decide +kernel) (by decide))
    (by decide +kernel)).1 ⟨_, rfl, by decide +kernel⟩
example : model.quantity "source_cap_min" gas * unitData.bought gas ≤ plant.sourceCap gas :=
  (C83_source_minimum setting traverses plant unitData (has_ok (by decide +kernel)) (within_ok (by decide +kernel))
    (con (by simp [constraints])) gas_valid (sat (by simp [constraints]) gas_valid)
    (in_model gas_valid ["a", "gas", "e"] (by decide +kernel) (by decide)) (by unfold Text; decide +kernel)
    (by decide +kernel)).1 ⟨_, rfl, by decide +kernel⟩
example : model.quantity "area_use_min" gas = 2 ∧ model.quantity "source_cap_min" gas = 50 := by decide +kernel
theorem available : Solves model.W model.E availableFlowCapVar (model.quantity "available_flow_cap") :=
  chooses_ok (v := availableFlowCapVar) (all_chosen _ (by simp [decisions]))
example : model.quantity "available_flow_cap" gas = plant.cap gas :=
  (C83_available setting traverses plant unitData limits available (con (by simp [constraints]))
    (con (by simp [constraints])) (con (by simp [constraints])) (con (by simp [constraints])) gas_valid
    (sat (by simp [constraints]) gas_valid) (sat (by simp [constraints]) gas_valid)
    (sat (by simp [constraints]) gas_valid) (sat (by simp [constraints]) gas_valid) ⟨_, rfl, by decide +kernel⟩
    ⟨_, rfl, by decide +kernel⟩ (by decide +kernel)).2.2 (by decide +kernel)
example : model.quantity "available_flow_cap" gas * plant.hours gas * limits.share gas ≤ plant.out gas :=
  (C83_least setting traverses plant unitData limits (con (by simp [constraints])) gas_valid
    (sat (by simp [constraints]) gas_valid) available (within_ok (by decide +kernel))
    (in_model gas_valid ["a", "gas", "e"] (by decide +kernel) (by decide)) ⟨_, rfl, by decide +kernel⟩ ⟨_, rfl, by decide +kernel⟩
    (by decide +kernel)).2 ⟨_, rfl, by decide +kernel⟩

/-- C83_total_ignored: three wind turbines should be bought. -/
def wind : Point := model.point [("techs", "wind")]
theorem wind_valid : Valid model.W wind := valid_point model_ok (by decide)
example : (model.con unitCapacityMinSystemwideMilp).at wind = Option.none :=
  C83_total_ignored setting traverses limits (con (by simp [constraints])) wind_valid (by decide +kernel)

/-- C83 is false of the code in one part: all constraints and bounds of the math hold in this solution; at least three
wind turbines are asked for, and none is bought. -/
theorem C83_too_few :
    (∀ c ∈ constraints, ∃ b, buildConstraint model.W model.E List.dedup c = .ok b ∧
      ∀ ρ, Valid model.W ρ → Satisfied b ρ) ∧
    (∀ v ∈ decisions, Solves model.W model.E v (model.quantity v.name)) ∧ Valid model.W wind ∧
    model.quantity "purchased_units_min_systemwide" wind = 3 ∧
    sumOver model.E "nodes" (model.quantity "purchased_units") wind = 0 :=
  ⟨fun _ hc => ⟨_, con hc, fun _ hρ => sat hc hρ⟩, fun v hv => chooses_ok (all_chosen v hv), wind_valid,
    by decide +kernel⟩

end UnitDemo
end BaseMath
end Calliope
