import Verif.Props.SupplyDemo
import Verif.Props.Capacities

/-!
# Examples for C89

At `a`, a supply technology `pv` on some area, one, `old`, that cannot be built, a demand and a boiler that makes heat
from gas; a battery at `b`, and a line from `a` to `b`.
-/

namespace Calliope
namespace BaseMath

open Grid Infix Expr Expand Build Where Mini

namespace CapDemo

open LimitDemo (ntc ntct ntt nt carries)
open SupplyDemo (constraints decisions)

def params : List ((String × List String × (List Label → Rat)) × (String × Input)) :=
  [param "flow_cap_min" ["techs"] [] 0, param "flow_cap_max" ["techs"] [(["old"], 0)] 1000,
   param "export_min" ["techs"] [] 0, param "export_max" ["techs"] [] 1000,
   param "source_cap_min" ["techs"] [] 0, param "source_cap_max" ["techs"] [] 1000,
   param "storage_cap_min" ["techs"] [] 0, param "storage_cap_max" ["techs"] [] 1000,
   param "area_use_min" ["techs"] [] 0, param "area_use_max" ["techs"] [(["old"], 7)] 1000,
   param "flow_out_parasitic_eff" ["techs"] [] 1, param "flow_out_eff" ["techs"] [] 1,
   param "flow_in_eff" ["techs"] [] 1, param "source_eff" ["techs"] [] 1,
   param "flow_out_eff_per_distance" ["techs"] [] 1, param "flow_in_eff_per_distance" ["techs"] [] 1,
   param "distance" ["techs"] [] 1, param "storage_loss" ["techs"] [] 0, param "storage_initial" ["techs"] [] 0,
   param "flow_out_min_relative" ["techs"] [(["boiler"], 1 / 2)] 0, param "flow_ramping" ["techs"] [] 1,
   param "sink_use_equals" ["techs"] [(["load"], 2)] 0, param "sink_use_max" ["techs"] [] 1000,
   param "sink_use_min" ["techs"] [] 0, param "source_use_equals" ["techs"] [] 0,
   param "source_use_max" ["techs"] [] 1000, param "source_use_min" ["techs"] [] 0,
   param "flow_cap_per_storage_cap_min" ["techs"] [(["batt"], 1 / 4)] 0,
   param "flow_cap_per_storage_cap_max" ["techs"] [(["batt"], 1 / 2)] 1000,
   param "area_use_per_flow_cap" ["techs"] [(["pv"], 5)] 1, param "available_area" ["nodes"] [(["a"], 12)] 1000,
   param "flow_cap_max_systemwide" ["techs"] [(["line"], 6)] 1000,
   param "flow_cap_min_systemwide" ["techs"] [(["pv"], 1)] 0,
   param "timestep_resolution" ["timesteps"] [(["t1"], 2)] 1]

def results : List ((String × List String × (List Label → Rat)) × (String × Arr Bool)) :=
  [result "flow_cap" ntc [(["a", "pv", "e"], 2), (["a", "old", "e"], 0), (["a", "line", "e"], 3),
     (["b", "line", "e"], 3), (["b", "batt", "e"], 2), (["a", "boiler", "heat"], 0), (["a", "load", "e"], 2),
     (["a", "boiler", "gas"], 0)],
   result "link_flow_cap" ["techs"] [(["line"], 3)],
   result "area_use" nt [(["a", "pv"], 10), (["a", "old"], 0)], result "storage_cap" nt [(["b", "batt"], 4)],
   result "source_cap" nt [(["a", "pv"], 2), (["a", "old"], 0)],
   result "flow_out" ntct [(["a", "pv", "e", "t0"], 2), (["a", "pv", "e", "t1"], 2), (["a", "old", "e", "t0"], 0),
     (["a", "old", "e", "t1"], 0), (["a", "line", "e", "t0"], 0), (["a", "line", "e", "t1"], 0),
     (["b", "line", "e", "t0"], 0), (["b", "line", "e", "t1"], 0), (["b", "batt", "e", "t0"], 0),
     (["b", "batt", "e", "t1"], 0), (["a", "boiler", "heat", "t0"], 0), (["a", "boiler", "heat", "t1"], 0)],
   result "flow_out_inc_eff" ntct [(["a", "pv", "e", "t0"], 2), (["a", "pv", "e", "t1"], 2),
     (["a", "old", "e", "t0"], 0), (["a", "old", "e", "t1"], 0), (["a", "line", "e", "t0"], 0),
     (["a", "line", "e", "t1"], 0), (["b", "line", "e", "t0"], 0), (["b", "line", "e", "t1"], 0),
     (["b", "batt", "e", "t0"], 0), (["b", "batt", "e", "t1"], 0), (["a", "boiler", "heat", "t0"], 0),
     (["a", "boiler", "heat", "t1"], 0)],
   result "flow_in" ntct [(["a", "load", "e", "t0"], 2), (["a", "load", "e", "t1"], 2),
     (["a", "line", "e", "t0"], 0), (["a", "line", "e", "t1"], 0), (["b", "line", "e", "t0"], 0),
     (["b", "line", "e", "t1"], 0), (["b", "batt", "e", "t0"], 0), (["b", "batt", "e", "t1"], 0),
     (["a", "boiler", "gas", "t0"], 0), (["a", "boiler", "gas", "t1"], 0)],
   result "flow_in_inc_eff" ntct [(["a", "load", "e", "t0"], 2), (["a", "load", "e", "t1"], 2),
     (["a", "line", "e", "t0"], 0), (["a", "line", "e", "t1"], 0), (["b", "line", "e", "t0"], 0),
     (["b", "line", "e", "t1"], 0), (["b", "batt", "e", "t0"], 0), (["b", "batt", "e", "t1"], 0),
     (["a", "boiler", "gas", "t0"], 0), (["a", "boiler", "gas", "t1"], 0)],
   result "flow_export" ntct [],
   result "source_use" ntt [(["a", "pv", "t0"], 2), (["a", "pv", "t1"], 2), (["a", "old", "t0"], 0),
     (["a", "old", "t1"], 0)],
   result "storage" ntt [(["b", "batt", "t0"], 0), (["b", "batt", "t1"], 0)],
   result "unmet_demand" ["nodes", "carriers", "timesteps"] [],
   result "unused_supply" ["nodes", "carriers", "timesteps"] []]

def model : Mini where
  labels := [("nodes", ["a", "b"]), ("techs", ["pv", "old", "line", "batt", "boiler", "load"]),
    ("carriers", ["e", "gas", "heat"]), ("timesteps", ["t0", "t1"])]
  data := params.map Prod.fst ++ results.map Prod.fst
  lookups := []
  inputs := params.map Prod.snd ++
    [text "base_tech" ["techs"] [(["pv"], "supply"), (["old"], "supply"), (["line"], "transmission"),
       (["batt"], "storage"), (["boiler"], "conversion"), (["load"], "demand")] .nan,
     text "sink_unit" ["techs"] [] (.str "absolute"), text "source_unit" ["techs"] [] (.str "absolute"),
     flag "source_cap_equals_flow_cap" ["techs"] [["pv"]],
     carries "carrier_out"
       [["a", "pv", "e"], ["a", "old", "e"], ["a", "line", "e"], ["b", "line", "e"], ["b", "batt", "e"],
       ["a", "boiler", "heat"]],
     carries "carrier_in"
       [["a", "load", "e"], ["a", "line", "e"], ["b", "line", "e"], ["b", "batt", "e"], ["a", "boiler", "gas"]]]
  results := results.map Prod.snd
  along := ntc
  items := [["a", "pv", "e"], ["a", "old", "e"], ["a", "line", "e"], ["b", "line", "e"], ["b", "batt", "e"],
       ["a", "boiler", "heat"], ["a", "load", "e"], ["a", "boiler", "gas"]]
  config := [("ensure_feasibility", .bool false)]

theorem model_ok : model.ok = true := by decide +kernel
theorem all_built : ∀ c ∈ constraints, isOk (buildConstraint model.W model.E List.dedup c) = true := by decide +kernel
theorem all_hold : ∀ c ∈ constraints, model.holds c = true := by decide +kernel
theorem all_chosen : ∀ v ∈ decisions, model.chooses v = true := by decide +kernel

theorem setting : Setting model.W model.E power := Mini.setting model_ok

theorem con {c : Component Rat} (hc : c ∈ constraints) :
    buildConstraint model.W model.E List.dedup c = .ok (model.con c) := con_ok (all_built c hc)
theorem sat {c : Component Rat} (hc : c ∈ constraints) {ρ : Point} (hρ : Valid model.W ρ) :
    Satisfied (model.con c) ρ := con_holds (all_hold c hc) hρ

theorem defines {c : Component Rat} (h : model.knows c.foreach c = true) :
    Defines model.W model.E List.dedup c (model.quantity c.defn.name) := knows_ok h (fun g hg => by
      funext ρ
      simp only [Mini.quantity, hg])

def plant : Plant model.W model.E where
  out := model.quantity "flow_out"
  inn := model.quantity "flow_in"
  exp := model.quantity "flow_export"
  source := model.quantity "source_use"
  level := model.quantity "storage"
  cap := model.quantity "flow_cap"
  sourceCap := model.quantity "source_cap"
  storageCap := model.quantity "storage_cap"
  hours := model.quantity "timestep_resolution"
  parasitic := model.quantity "flow_out_parasitic_eff"
  isOut := chooses_ok (v := flowOutVar) (all_chosen _ (by simp [decisions]))
  isInn := chooses_ok (v := flowInVar) (all_chosen _ (by simp [decisions]))
  isExp := chooses_ok (v := flowExportVar) (all_chosen _ (by simp [decisions]))
  isSource := chooses_ok (v := sourceUseVar) (all_chosen _ (by simp [decisions]))
  isLevel := chooses_ok (v := storageVar) (all_chosen _ (by simp [decisions]))
  isCap := .inl (chooses_ok (v := flowCapVar) (all_chosen _ (by simp [decisions])))
  isSourceCap := .inl (chooses_ok (v := sourceCapVar) (all_chosen _ (by simp [decisions])))
  isStorageCap := .inl (chooses_ok (v := storageCapVar) (all_chosen _ (by simp [decisions])))
  isHours := has_ok (by decide +kernel)
  isParasitic := has_ok (by decide +kernel)
  capNonneg := nonneg_ok (by decide +kernel)
  hoursNonneg := nonneg_ok (by decide +kernel)
  parasiticNonneg := nonneg_ok (by decide +kernel)

def rules : Rules model.W model.E where
  area := model.quantity "area_use"
  link := model.quantity "link_flow_cap"
  shareMin := model.quantity "flow_cap_per_storage_cap_min"
  shareMax := model.quantity "flow_cap_per_storage_cap_max"
  perCap := model.quantity "area_use_per_flow_cap"
  available := model.quantity "available_area"
  totalMin := model.quantity "flow_cap_min_systemwide"
  totalMax := model.quantity "flow_cap_max_systemwide"
  least := model.quantity "flow_out_min_relative"
  isArea := .inl (chooses_ok (v := areaUseVar) (all_chosen _ (by simp [decisions])))
  isLink := chooses_ok (v := linkFlowCapVar) (all_chosen _ (by simp [decisions]))
  isShareMin := has_ok (by decide +kernel)
  isShareMax := has_ok (by decide +kernel)
  isPerCap := has_ok (by decide +kernel)
  isAvailable := has_ok (by decide +kernel)
  isTotalMin := has_ok (by decide +kernel)
  isTotalMax := has_ok (by decide +kernel)
  isLeast := has_ok (by decide +kernel)
  within := within_ok (by decide +kernel)
  totalWithin := within_ok (by decide +kernel)
  areaWithin := within_ok (by decide +kernel)
  techWithin := within_ok (by decide +kernel)
  leastWithin := within_ok (by decide +kernel)

/-- C89_share_least, C89_share_most: the battery. -/
def batt : Point := model.point [("nodes", "b"), ("techs", "batt")]
theorem batt_valid : Valid model.W batt := valid_point model_ok (by decide)
example : 1 ≤ model.quantity "flow_cap" batt := by
  have := (C89_share_least setting traverses plant rules
    (con (c := flowCapacityPerStorageCapacityMin) (by simp [constraints])) batt_valid).1
    (sat (by simp [constraints]) batt_valid) (in_model batt_valid ["b", "batt", "e"] (by decide +kernel) (by decide))
    ⟨_, rfl, by decide +kernel⟩ (by decide +kernel)
  exact le_trans (by decide +kernel) this
example : model.quantity "flow_cap" batt ≤ 2 := by
  have := (C89_share_most setting traverses plant rules
    (con (c := flowCapacityPerStorageCapacityMax) (by simp [constraints])) batt_valid).1
    (sat (by simp [constraints]) batt_valid) (in_model batt_valid ["b", "batt", "e"] (by decide +kernel) (by decide))
    ⟨_, rfl, by decide +kernel⟩ (by decide +kernel)
  exact le_trans this (by decide +kernel)

/-- C89_source, C89_area, C89_site: the area of `pv`. -/
def pv : Point := model.point []
theorem pv_valid : Valid model.W pv := valid_point model_ok (by decide)
example : model.quantity "source_cap" pv = model.quantity "flow_cap" pv :=
  (C89_source setting traverses plant rules (con (c := sourceCapacityEqualsFlowCapacity) (by simp [constraints]))
    pv_valid).1 (sat (by simp [constraints]) pv_valid)
    (in_model pv_valid ["a", "pv", "e"] (by decide +kernel) (by decide)) ⟨_, rfl, by decide +kernel⟩
    (by decide +kernel)
example : model.quantity "area_use" pv = model.quantity "flow_cap" pv * 5 :=
  (C89_area setting traverses plant rules (con (c := areaUsePerFlowCapacity) (by simp [constraints])) pv_valid).1
    (sat (by simp [constraints]) pv_valid) (in_model pv_valid ["a", "pv", "e"] (by decide +kernel) (by decide))
    ⟨_, rfl, by decide +kernel⟩ (by decide +kernel)
example : sumOver model.E "techs" (model.quantity "area_use") pv ≤ 12 :=
  (C89_site setting traverses rules (con (c := areaUseCapacityPerLoc) (by simp [constraints])) pv_valid
    (by decide +kernel)).1 (sat (by simp [constraints]) pv_valid) (by decide +kernel)

/-- C89_no_area: a technology that cannot be built. -/
def old : Point := model.point [("techs", "old")]
theorem old_valid : Valid model.W old := valid_point model_ok (by decide)
example : model.quantity "area_use" old = 0 :=
  (C89_no_area setting traverses rules (con (c := forceZeroAreaUse) (by simp [constraints])) old_valid).1
    (sat (by simp [constraints]) old_valid) ⟨_, rfl, by decide +kernel⟩
    ⟨fun d hd => .inr ((by decide : ∀ d ∈ ["nodes", "techs"], d ∈ model.labels.map Prod.fst) d hd), old, old_valid,
      fun _ _ => rfl, by decide +kernel, .inl (by decide +kernel)⟩

/-- C89_total_least: at least 1 of `pv`. -/
example : 1 ≤ sumOver model.E "nodes" (model.quantity "flow_cap") pv :=
  (C89_total_least setting traverses plant rules (con (c := flowCapacitySystemwideMin) (by simp [constraints]))
    pv_valid).1 (sat (by simp [constraints]) pv_valid)
    (in_model pv_valid ["a", "pv", "e"] (by decide +kernel) (by decide)) (by decide +kernel)

/-- C89_total_most, C89_link, C89_link_twice: the line has a capacity of 3 at both ends, and uses up a limit of 6. -/
def line : Point := model.point [("techs", "line")]
theorem line_valid : Valid model.W line := valid_point model_ok (by decide)
example : sumOver model.E "nodes" (model.quantity "flow_cap") line ≤ 6 :=
  (C89_total_most setting traverses plant rules (con (c := flowCapacitySystemwideMax) (by simp [constraints]))
    line_valid).1 (sat (by simp [constraints]) line_valid)
    (in_model line_valid ["a", "line", "e"] (by decide +kernel) (by decide)) (by decide +kernel)
example : sumOver model.E "carriers" (model.quantity "flow_cap") line =
    sumOver model.E "carriers" (model.quantity "flow_cap") (set line "nodes" "b") :=
  C89_link setting traverses plant rules (con (c := symmetricTransmission) (by simp [constraints])) line_valid
    (v := "b") (by decide) (by decide +kernel) (by decide +kernel)
    (in_model line_valid ["a", "line", "e"] (by decide +kernel) (by decide))
    (in_model (set_valid line_valid (by decide)) ["b", "line", "e"] (by decide +kernel) (by decide)) rfl
    (sat (by simp [constraints]) line_valid) (sat (by simp [constraints]) (set_valid line_valid (by decide)))
example : 2 * 3 ≤ model.quantity "flow_cap_max_systemwide" line :=
  C89_link_twice setting traverses plant rules (con (c := flowCapacitySystemwideMax) (by simp [constraints]))
    line_valid (sat (by simp [constraints]) line_valid)
    (in_model line_valid ["a", "line", "e"] (by decide +kernel) (by decide)) (by decide +kernel) (u := "a") (v := "b")
    (by decide) (by decide) (by decide) (by decide) (by decide +kernel) (by decide +kernel) (by
      intro l h1 h2
      show ((table _ [l, "line", "e"]) : Rat) = 0
      simp [table, List.lookup, beq_false_of_ne h1, beq_false_of_ne h2])

/-- C89_least, C89_least_blocks: the boiler can take in no gas. -/
def gas : Point := model.point [("techs", "boiler"), ("carriers", "gas")]
theorem gas_valid : Valid model.W gas := valid_point model_ok (by decide)
example : model.quantity "flow_cap" gas * 1 * (1 / 2) ≤ model.quantity "flow_out" gas :=
  (C89_least setting traverses plant rules (con (c := flowOutMin) (by simp [constraints])) gas_valid).1
    (sat (by simp [constraints]) gas_valid)
    (in_model gas_valid ["a", "boiler", "gas"] (by decide +kernel) (by decide)) (by decide +kernel)
theorem no_outflow : ¬ ItemOf model.W (flowOutVar (V := Rat)) gas := by
  intro h
  rw [← (C79_exists plant.isOut gas_valid)] at h
  obtain ⟨a, ha, hv⟩ := h
  cases (show some _ = some a from ha)
  revert hv
  decide +kernel
example : model.quantity "flow_cap" gas = 0 ∧ model.quantity "flow_in" gas = 0 :=
  C89_least_blocks setting traverses plant rules (con (c := flowOutMin) (by simp [constraints]))
    (con (c := flowInMax) (by simp [constraints])) gas_valid (sat (by simp [constraints]) gas_valid)
    (sat (by simp [constraints]) gas_valid)
    (in_model gas_valid ["a", "boiler", "gas"] (by decide +kernel) (by decide)) (by decide +kernel) (by decide +kernel)
    (by decide +kernel) no_outflow

end CapDemo
end BaseMath
end Calliope
