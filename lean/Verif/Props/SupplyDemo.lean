import Verif.Props.LimitDemo
import Verif.Props.CostDemo
import Verif.Props.Ramping

/-!
# Examples for C84 and C85

A supply technology `pv` that may not ramp fast, one, `wood`, with two carriers, a fixed demand `load` of electricity
and a flexible demand `heat`.
-/

namespace Calliope
namespace BaseMath

open Grid Infix Expr Expand Build Where Mini

namespace SupplyDemo

open LimitDemo

/-- All constraints of the base math. -/
def constraints : List (Component Rat) :=
  [flowCapacityPerStorageCapacityMin, flowCapacityPerStorageCapacityMax, sourceCapacityEqualsFlowCapacity,
   forceZeroAreaUse, areaUsePerFlowCapacity, areaUseCapacityPerLoc, flowCapacitySystemwideMax,
   flowCapacitySystemwideMin, balanceConversion, flowOutMax, flowOutMin, flowInMax, sourceMax, storageMax,
   storageDischargeDepthLimit, systemBalance, balanceDemand, balanceDemandMinUse, balanceSupplyNoStorage,
   balanceSupplyWithStorage, sourceAvailabilitySupply, balanceSupplyMinUse, balanceStorage, setStorageInitial,
   balanceTransmission, symmetricTransmission, exportBalance, rampingUp, rampingDown]

/-- All variables of the base math. -/
def decisions : List (Variable Rat) :=
  [flowCapVar, linkFlowCapVar, flowOutVar, flowInVar, flowExportVar, areaUseVar, sourceUseVar, sourceCapVar,
   storageCapVar, storageVar, unmetDemandVar, unusedSupplyVar]

def params : List ((String × List String × (List Label → Rat)) × (String × Input)) :=
  [param "flow_cap_min" ["techs"] [] 0, param "flow_cap_max" ["techs"] [] 1000,
   param "export_min" ["techs"] [] 0, param "export_max" ["techs"] [] 1000,
   param "source_cap_min" ["techs"] [] 0, param "source_cap_max" ["techs"] [] 1000,
   param "storage_cap_min" ["techs"] [] 0, param "storage_cap_max" ["techs"] [] 1000,
   param "area_use_min" ["techs"] [] 0, param "area_use_max" ["techs"] [] 1000,
   param "flow_out_parasitic_eff" ["techs"] [] 1, param "flow_out_eff" ["techs"] [(["pv"], 1 / 2)] 1,
   param "flow_in_eff" ["techs"] [(["heat"], 1 / 2)] 1, param "source_eff" ["techs"] [] 1,
   param "flow_out_eff_per_distance" ["techs"] [] 1, param "flow_in_eff_per_distance" ["techs"] [] 1,
   param "distance" ["techs"] [] 1, param "storage_loss" ["techs"] [] 0, param "storage_initial" ["techs"] [] 0,
   param "flow_out_min_relative" ["techs"] [] 0, param "flow_ramping" ["techs"] [(["pv"], 1 / 3)] 1,
   param "sink_use_equals" ["techs", "timesteps"] [(["load", "t0"], 4), (["load", "t1"], 8), (["load", "t2"], 3)] 0,
   param "sink_use_max" ["techs"] [(["heat"], 1 / 4)] 1000, param "sink_use_min" ["techs"] [(["heat"], 1 / 8)] 0,
   param "source_use_equals" ["techs"] [(["wood"], 2)] 0,
   param "source_use_max" ["techs", "timesteps"] [(["pv", "t0"], 1), (["pv", "t1"], 2), (["pv", "t2"], 1)] 1000,
   param "source_use_min" ["techs"] [(["pv"], 1 / 3)] 0,
   param "timestep_resolution" ["timesteps"] [(["t1"], 2)] 1]

def results : List ((String × List String × (List Label → Rat)) × (String × Arr Bool)) :=
  [result "flow_cap" ntc [(["a", "pv", "e"], 6), (["a", "wood", "e"], 2), (["a", "wood", "h"], 2),
     (["a", "load", "e"], 4), (["a", "heat", "h"], 8)],
   result "link_flow_cap" ["techs"] [], result "area_use" nt [], result "storage_cap" nt [],
   result "source_cap" nt [(["a", "pv"], 100), (["a", "wood"], 100)],
   result "flow_out" ntct [(["a", "pv", "e", "t0"], 2), (["a", "pv", "e", "t1"], 6), (["a", "pv", "e", "t2"], 1),
     (["a", "wood", "e", "t0"], 2), (["a", "wood", "e", "t1"], 2), (["a", "wood", "e", "t2"], 2),
     (["a", "wood", "h", "t0"], 2), (["a", "wood", "h", "t1"], 2), (["a", "wood", "h", "t2"], 2)],
   result "flow_out_inc_eff" ntct [(["a", "pv", "e", "t0"], 4), (["a", "pv", "e", "t1"], 12), (["a", "pv", "e", "t2"], 2),
     (["a", "wood", "e", "t0"], 2), (["a", "wood", "e", "t1"], 2), (["a", "wood", "e", "t2"], 2),
     (["a", "wood", "h", "t0"], 2), (["a", "wood", "h", "t1"], 2), (["a", "wood", "h", "t2"], 2)],
   result "flow_in" ntct [(["a", "load", "e", "t0"], 4), (["a", "load", "e", "t1"], 8), (["a", "load", "e", "t2"], 3),
     (["a", "heat", "h", "t0"], 2), (["a", "heat", "h", "t1"], 2), (["a", "heat", "h", "t2"], 2)],
   result "flow_in_inc_eff" ntct [(["a", "load", "e", "t0"], 4), (["a", "load", "e", "t1"], 8),
     (["a", "load", "e", "t2"], 3), (["a", "heat", "h", "t0"], 1), (["a", "heat", "h", "t1"], 1),
     (["a", "heat", "h", "t2"], 1)],
   result "flow_export" ntct [],
   result "source_use" ntt [(["a", "pv", "t0"], 4), (["a", "pv", "t1"], 12), (["a", "pv", "t2"], 2),
     (["a", "wood", "t0"], 2), (["a", "wood", "t1"], 2), (["a", "wood", "t2"], 2)],
   result "storage" ntt [], result "unmet_demand" ["nodes", "carriers", "timesteps"] [],
   result "unused_supply" ["nodes", "carriers", "timesteps"] []]

def model : Mini where
  labels := [("nodes", ["a"]), ("techs", ["pv", "wood", "load", "heat"]), ("carriers", ["e", "h"]),
    ("timesteps", ["t0", "t1", "t2"])]
  data := params.map Prod.fst ++ results.map Prod.fst
  lookups := []
  inputs := params.map Prod.snd ++
    [text "base_tech" ["techs"] [(["pv"], "supply"), (["wood"], "supply"), (["load"], "demand"), (["heat"], "demand")]
      .nan,
     text "sink_unit" ["techs"] [(["heat"], "per_cap")] (.str "absolute"),
     text "source_unit" ["techs"] [(["pv"], "per_cap")] (.str "absolute"),
     carries "carrier_out" [["a", "pv", "e"], ["a", "wood", "e"], ["a", "wood", "h"]],
     carries "carrier_in" [["a", "load", "e"], ["a", "heat", "h"]]]
  results := results.map Prod.snd
  along := ntc
  items := [["a", "pv", "e"], ["a", "wood", "e"], ["a", "wood", "h"], ["a", "load", "e"], ["a", "heat", "h"]]
  config := [("ensure_feasibility", .bool false)]

theorem model_ok : model.ok = true := by decide +kernel
theorem all_built : ∀ c ∈ constraints, isOk (buildConstraint model.W model.E List.dedup c) = true := by decide +kernel
theorem all_hold : ∀ c ∈ constraints, model.holds c = true := by decide +kernel
theorem all_chosen : ∀ v ∈ decisions, model.chooses v = true := by decide +kernel

theorem setting : Setting model.W model.E power := Mini.setting model_ok

theorem con {c : Component Rat} (hc : c ∈ constraints) :
    buildConstraint model.W model.E List.dedup c = .ok (model.con c) := con_ok (all_built c hc)
theorem sat {c : Component Rat} (hc : c ∈ constraints) {ρ : Point} (hρ : Valid model.W ρ) :
    Satisfied (model.con c) ρ := con_holds (all_hold c hc) hρ

theorem defines {c : Component Rat} (h : model.knows c.foreach c = true) :
    Defines model.W model.E List.dedup c (model.quantity c.defn.name) := knows_ok h (fun g hg => by
      funext ρ
      simp only [Mini.quantity, hg])

theorem inflows : Defines model.W model.E List.dedup flowInIncEff (model.quantity "flow_in_inc_eff") :=
  defines (c := flowInIncEff) (by decide +kernel)
theorem outflows : Defines model.W model.E List.dedup flowOutIncEff (model.quantity "flow_out_inc_eff") :=
  defines (c := flowOutIncEff) (by decide +kernel)

def plant : Plant model.W model.E where
  out := model.quantity "flow_out"
  inn := model.quantity "flow_in"
  exp := model.quantity "flow_export"
  source := model.quantity "source_use"
  level := model.quantity "storage"
  cap := model.quantity "flow_cap"
  sourceCap := model.quantity "source_cap"
  storageCap := model.quantity "storage_cap"
  hours := model.quantity "timestep_resolution"
  parasitic := model.quantity "flow_out_parasitic_eff"
  isOut := chooses_ok (v := flowOutVar) (all_chosen _ (by simp [decisions]))
  isInn := chooses_ok (v := flowInVar) (all_chosen _ (by simp [decisions]))
  isExp := chooses_ok (v := flowExportVar) (all_chosen _ (by simp [decisions]))
  isSource := chooses_ok (v := sourceUseVar) (all_chosen _ (by simp [decisions]))
  isLevel := chooses_ok (v := storageVar) (all_chosen _ (by simp [decisions]))
  isCap := .inl (chooses_ok (v := flowCapVar) (all_chosen _ (by simp [decisions])))
  isSourceCap := .inl (chooses_ok (v := sourceCapVar) (all_chosen _ (by simp [decisions])))
  isStorageCap := .inl (chooses_ok (v := storageCapVar) (all_chosen _ (by simp [decisions])))
  isHours := has_ok (by decide +kernel)
  isParasitic := has_ok (by decide +kernel)
  capNonneg := nonneg_ok (by decide +kernel)
  hoursNonneg := nonneg_ok (by decide +kernel)
  parasiticNonneg := nonneg_ok (by decide +kernel)

def needs : Needs model.W model.E where
  area := model.quantity "area_use"
  sinkEquals := model.quantity "sink_use_equals"
  sinkMax := model.quantity "sink_use_max"
  sinkMin := model.quantity "sink_use_min"
  sourceEquals := model.quantity "source_use_equals"
  sourceMax := model.quantity "source_use_max"
  sourceMin := model.quantity "source_use_min"
  sourceEff := model.quantity "source_eff"
  isArea := has_ok (by decide +kernel)
  isSinkEquals := has_ok (by decide +kernel)
  isSinkMax := has_ok (by decide +kernel)
  isSinkMin := has_ok (by decide +kernel)
  isSourceEquals := has_ok (by decide +kernel)
  isSourceMax := has_ok (by decide +kernel)
  isSourceMin := has_ok (by decide +kernel)
  isSourceEff := has_ok (by decide +kernel)
  kindWithin := within_ok (by decide +kernel)
  sinkWithin := within_ok (by decide +kernel)
  sourceWithin := within_ok (by decide +kernel)

def effs : Efficiencies model.E where
  out := model.quantity "flow_out_eff"
  parasitic := model.quantity "flow_out_parasitic_eff"
  outPerDistance := model.quantity "flow_out_eff_per_distance"
  inn := model.quantity "flow_in_eff"
  innPerDistance := model.quantity "flow_in_eff_per_distance"
  distance := model.quantity "distance"
  isOut := has_ok (by decide +kernel)
  isParasitic := has_ok (by decide +kernel)
  isOutPerDistance := has_ok (by decide +kernel)
  isInn := has_ok (by decide +kernel)
  isInnPerDistance := has_ok (by decide +kernel)
  isDistance := has_ok (by decide +kernel)

/-- C84_demand: the fixed demand for electricity in the second step is met. -/
def load : Point := model.point [("techs", "load"), ("timesteps", "t1")]
theorem load_valid : Valid model.W load := valid_point model_ok (by decide)
example : model.quantity "flow_in" load * effs.taking model.W power load = 8 := by
  have := ((C84_demand setting traverses plant needs effs inflows (con (c := balanceDemand) (by simp [constraints]))
    load_valid (in_model load_valid ["a", "load", "e"] (by decide +kernel) (by decide)) (by decide +kernel)
    (.inr (.inr (by decide +kernel)))).1 (sat (by simp [constraints]) load_valid)).1 (by decide +kernel)
  exact this.trans (by decide +kernel)

/-- C84_demand, C84_demand_least: the flexible demand for heat, per capacity. -/
def heat : Point := model.point [("techs", "heat"), ("carriers", "h")]
theorem heat_valid : Valid model.W heat := valid_point model_ok (by decide)
example : model.quantity "flow_in" heat * effs.taking model.W power heat ≤ 2 := by
  have := ((C84_demand setting traverses plant needs effs inflows (con (c := balanceDemand) (by simp [constraints]))
    heat_valid (in_model heat_valid ["a", "heat", "h"] (by decide +kernel) (by decide)) (by decide +kernel)
    (.inr (.inl (by decide +kernel)))).1 (sat (by simp [constraints]) heat_valid)).2 (by decide +kernel)
    (by decide +kernel)
  exact this.trans (by decide +kernel)
example : 1 ≤ model.quantity "flow_in" heat * effs.taking model.W power heat := by
  have := (C84_demand_least setting traverses plant needs effs inflows
    (con (c := balanceDemandMinUse) (by simp [constraints]))
    heat_valid (in_model heat_valid ["a", "heat", "h"] (by decide +kernel) (by decide)) (by decide +kernel)
    (.inr (.inl (by decide +kernel))) (by decide +kernel) (by decide +kernel)).1 (sat (by simp [constraints]) heat_valid)
  exact le_trans (by decide +kernel) this

/-- C84_source, C84_source_least, C84_supply, C84_supply_partial: what the sun gives in the second step. -/
def sun : Point := model.point [("techs", "pv"), ("timesteps", "t1")]
theorem sun_valid : Valid model.W sun := valid_point model_ok (by decide)
example : model.quantity "source_use" sun ≤ 12 := by
  have := ((C84_source setting traverses plant needs (con (c := sourceAvailabilitySupply) (by simp [constraints]))
    sun_valid (in_model sun_valid ["a", "pv", "e"] (by decide +kernel) (by decide)) ⟨_, rfl, by decide +kernel⟩
    (.inr (.inl (by decide +kernel)))).1 (sat (by simp [constraints]) sun_valid)).2 (by decide +kernel)
    (by decide +kernel)
  exact this.trans (by decide +kernel)
example : 2 ≤ model.quantity "source_use" sun := by
  have := (C84_source_least setting traverses plant needs (con (c := balanceSupplyMinUse) (by simp [constraints]))
    sun_valid (in_model sun_valid ["a", "pv", "e"] (by decide +kernel) (by decide)) (by decide +kernel)
    (.inr (.inl (by decide +kernel))) (by decide +kernel) (by decide +kernel)).1 (sat (by simp [constraints]) sun_valid)
  exact le_trans (by decide +kernel) this
example : sumOver model.E "carriers" (fun σ => model.quantity "flow_out" σ / effs.giving model.W power σ) sun =
    model.quantity "source_use" sun * model.quantity "source_eff" sun :=
  C84_supply_partial setting traverses plant needs effs outflows
    (con (c := balanceSupplyNoStorage) (by simp [constraints])) sun_valid (sat (by simp [constraints]) sun_valid)
    (in_model sun_valid ["a", "pv", "e"] (by decide +kernel) (by decide)) (by decide +kernel)
    (by unfold Flag; decide +kernel) (by decide +kernel) (by decide +kernel) (by
      intro l hl hne
      rintro ⟨a, ha, hv⟩
      have hl' : l = "e" ∨ l = "h" := by simpa [model, Mini.W, Mini.coords, List.lookup] using hl
      rcases hl' with rfl | rfl
      · exact hne rfl
      · cases (show some _ = some a from ha)
        revert hv
        decide +kernel)

def wood : Point := model.point [("techs", "wood")]
theorem wood_valid : Valid model.W wood := valid_point model_ok (by decide)
example : model.quantity "source_use" wood = 2 := by
  have := ((C84_source setting traverses plant needs (con (c := sourceAvailabilitySupply) (by simp [constraints]))
    wood_valid (in_model wood_valid ["a", "wood", "e"] (by decide +kernel) (by decide)) ⟨_, rfl, by decide +kernel⟩
    (.inr (.inr (by decide +kernel)))).1 (sat (by simp [constraints]) wood_valid)).1 (by decide +kernel)
  exact this.trans (by decide +kernel)

/-- C84 is false of the code for supply of several carriers: all constraints and bounds of the math hold in this solution;
two units are taken from the source, nothing is lost, and four units come out. -/
theorem C84_twice :
    (∀ c ∈ constraints, ∃ b, buildConstraint model.W model.E List.dedup c = .ok b ∧
      ∀ ρ, Valid model.W ρ → Satisfied b ρ) ∧
    (∀ v ∈ decisions, Solves model.W model.E v (model.quantity v.name)) ∧
    Defines model.W model.E List.dedup flowOutIncEff (model.quantity "flow_out_inc_eff") ∧
    Defines model.W model.E List.dedup flowInIncEff (model.quantity "flow_in_inc_eff") ∧ Valid model.W wood ∧
    model.quantity "source_use" wood = 2 ∧ model.quantity "source_eff" wood = 1 ∧
    (∀ c ∈ ["e", "h"], effs.giving model.W power (set wood "carriers" c) = 1) ∧
    sumOver model.E "carriers" (model.quantity "flow_out") wood = 4 :=
  ⟨fun _ hc => ⟨_, con hc, fun _ hρ => sat hc hρ⟩, fun v hv => chooses_ok (all_chosen v hv), outflows, inflows,
    wood_valid, by decide +kernel⟩

def ramps : Ramps model.W model.E where
  ramping := model.quantity "flow_ramping"
  isRamping := has_ok (by decide +kernel)
  hours := by
    intro a ha ρ hρ h
    have h1 := plant.isHours
    obtain ⟨c, hc, hv, _⟩ := h1
    rw [hc] at ha
    cases ha
    rw [hv ρ, Option.some.injEq] at h
    refine absurd h (forall_points (M := model) (ds := ["timesteps"]) (by simp)
      (P := fun ρ => ¬ plant.hours ρ = 0) ?_ (by decide +kernel) hρ)
    intro ρ σ _ hs hP
    have : plant.hours ρ = plant.hours σ := by
      show model.quantity "timestep_resolution" ρ = model.quantity "timestep_resolution" σ
      unfold Mini.quantity
      rw [show model.data.lookup "timestep_resolution" = some (["timesteps"], _) from rfl]
      simp only [List.map_cons, List.map_nil, hs "timesteps" (by simp)]
    rw [this]
    exact hP
  minus _ := rfl
  within := within_ok (by decide +kernel)

/-- C85_step, C85_steps -/
example : |plant.power sun - plant.power (previous model.W sun)| ≤ 2 := by
  have := (C85_step setting traverses plant ramps (con (c := rampingUp) (by simp [constraints]))
    (con (c := rampingDown) (by simp [constraints])) sun_valid
    (in_model sun_valid ["a", "pv", "e"] (by decide +kernel) (by decide)) (by decide +kernel) (by decide +kernel)
    (.inr (by decide +kernel))).1 ⟨sat (by simp [constraints]) sun_valid, sat (by simp [constraints]) sun_valid⟩
  exact this.trans (by decide +kernel)
example : |plant.power (set sun "timesteps" "t2") - plant.power (set sun "timesteps" "t0")| ≤ 4 := by
  have := C85_steps setting traverses plant ramps (con (c := rampingUp) (by simp [constraints]))
    (con (c := rampingDown) (by simp [constraints])) (fun _ h => sat (by simp [constraints]) h)
    (fun _ h => sat (by simp [constraints]) h) sun_valid
    (in_model sun_valid ["a", "pv", "e"] (by decide +kernel) (by decide)) (by decide +kernel)
    (.inr (by decide +kernel)) (pre := []) (post := []) (later := ["t1", "t2"]) (t := "t0") rfl (by decide)
  exact this.trans (by decide +kernel)

end SupplyDemo
end BaseMath
end Calliope
