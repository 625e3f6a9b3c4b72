import Verif.Props.CostDemo
import Verif.Props.MilpCosts

/-!
# Small models with purchases, and in operate mode

The model of `CostDemo`, with units of `pv` and of the link `line`, and of a link `wire` whose purchase has a price per
distance only; and the model of `CostDemo` with the costs of operate mode.
-/

namespace Calliope
namespace BaseMath

open Grid Infix Expr Expand Build Where

namespace MilpCostDemo

open Mini
open CostDemo (price pricesOf result resultsOf costsOf amount)

/-- What a component stands for. -/
def value (M : Mini) (n : String) (ρ : Point) : Rat :=
  match M.data.lookup n with
  | some (ds, g) => g (ds.map ρ)
  | none => 0

section
variable {M : Mini}

theorem value_is {n : String} {ds : List String} {g : List Label → Rat} (h : M.data.lookup n = some (ds, g)) :
    value M n = fun ρ => g (ds.map ρ) := by
  funext ρ
  simp only [value, h]

theorem isValue {n : String} {ds' : List String} (ds : List String) (h : (M.data.lookup n).map Prod.fst = some ds')
    (hd : ∀ d ∈ ds, d ∈ ds') : Is M.E n ds (value M n) := by
  rw [Option.map_eq_some_iff] at h
  obtain ⟨⟨ds'', g⟩, h, rfl⟩ := h
  rw [value_is h]
  exact is_data h hd

theorem decision {n : String} {ds : List String} (h : M.decides ds n = true) :
    Decision M.W M.E n ds (value M n) := decides_ok h (fun _ hg => value_is hg)

theorem price_ok {n : String} (h : M.prices ["techs"] n = true) : Price M.W M.E n (value M n) :=
  prices_ok h (fun _ _ hg => value_is hg)

theorem defines {c : Component Rat} (h : M.knows c.foreach c = true) :
    Defines M.W M.E List.dedup c (value M c.defn.name) := knows_ok h (fun _ hg => value_is hg)

/-- The variables and prices of a model are those that costs are about. -/
def costly (M : Mini) : Bool :=
  M.decides ["nodes", "techs", "carriers"] "flow_cap" && M.decides ["nodes", "techs"] "storage_cap" &&
  M.decides ["nodes", "techs"] "source_cap" && M.decides ["nodes", "techs"] "area_use" &&
  M.decides ["nodes", "techs", "carriers", "timesteps"] "flow_out" &&
  M.decides ["nodes", "techs", "carriers", "timesteps"] "flow_in" &&
  M.decides ["nodes", "techs", "carriers", "timesteps"] "flow_export" &&
  M.decides ["nodes", "techs", "timesteps"] "source_use" &&
  ["cost_flow_cap", "cost_flow_cap_per_distance", "cost_storage_cap", "cost_source_cap", "cost_area_use",
    "cost_om_annual", "cost_om_annual_investment_fraction", "cost_export", "cost_flow_out", "cost_flow_in",
    "cost_source_use"].all (fun n => M.prices ["techs"] n) &&
  decide ((M.data.lookup "distance").map Prod.fst = some ["techs"]) &&
  decide ((M.data.lookup "timestep_resolution").map Prod.fst = some ["timesteps"]) &&
  decide ((M.data.lookup "timestep_weights").map Prod.fst = some ["timesteps"])

theorem costly_parts (h : costly M = true) : (M.decides ["nodes", "techs", "carriers"] "flow_cap" = true ∧
    M.decides ["nodes", "techs"] "storage_cap" = true ∧ M.decides ["nodes", "techs"] "source_cap" = true ∧
    M.decides ["nodes", "techs"] "area_use" = true) ∧
    (M.decides ["nodes", "techs", "carriers", "timesteps"] "flow_out" = true ∧
    M.decides ["nodes", "techs", "carriers", "timesteps"] "flow_in" = true ∧
    M.decides ["nodes", "techs", "carriers", "timesteps"] "flow_export" = true ∧
    M.decides ["nodes", "techs", "timesteps"] "source_use" = true) ∧
    (∀ n ∈ ["cost_flow_cap", "cost_flow_cap_per_distance", "cost_storage_cap", "cost_source_cap", "cost_area_use",
      "cost_om_annual", "cost_om_annual_investment_fraction", "cost_export", "cost_flow_out", "cost_flow_in",
      "cost_source_use"], M.prices ["techs"] n = true) ∧
    (M.data.lookup "distance").map Prod.fst = some ["techs"] ∧
    (M.data.lookup "timestep_resolution").map Prod.fst = some ["timesteps"] ∧
    (M.data.lookup "timestep_weights").map Prod.fst = some ["timesteps"] := by
  simp only [costly, Bool.and_eq_true, decide_eq_true_eq, List.all_eq_true] at h
  obtain ⟨⟨⟨⟨⟨⟨⟨⟨⟨⟨⟨h1, h2⟩, h3⟩, h4⟩, h5⟩, h6⟩, h7⟩, h8⟩, h9⟩, h10⟩, h11⟩, h12⟩ := h
  exact ⟨⟨h1, h2, h3, h4⟩, ⟨h5, h6, h7, h8⟩, h9, h10, h11, h12⟩

def costs (h : costly M = true) : CostModel M.W M.E where
  flowCap := value M "flow_cap"
  storageCap := value M "storage_cap"
  sourceCap := value M "source_cap"
  area := value M "area_use"
  out := value M "flow_out"
  inn := value M "flow_in"
  exp := value M "flow_export"
  source := value M "source_use"
  perFlowCap := value M "cost_flow_cap"
  perDistance := value M "cost_flow_cap_per_distance"
  distance := value M "distance"
  perStorageCap := value M "cost_storage_cap"
  perSourceCap := value M "cost_source_cap"
  perArea := value M "cost_area_use"
  perYear := value M "cost_om_annual"
  fraction := value M "cost_om_annual_investment_fraction"
  perExport := value M "cost_export"
  perOut := value M "cost_flow_out"
  perIn := value M "cost_flow_in"
  perSource := value M "cost_source_use"
  hours := value M "timestep_resolution"
  weight := value M "timestep_weights"
  isFlowCap := decision (costly_parts h).1.1
  isStorageCap := decision (costly_parts h).1.2.1
  isSourceCap := decision (costly_parts h).1.2.2.1
  isArea := decision (costly_parts h).1.2.2.2
  isOut := decision (costly_parts h).2.1.1
  isInn := decision (costly_parts h).2.1.2.1
  isExp := decision (costly_parts h).2.1.2.2.1
  isSource := decision (costly_parts h).2.1.2.2.2
  isPerFlowCap := price_ok ((costly_parts h).2.2.1 _ (by simp))
  isPerDistance := price_ok ((costly_parts h).2.2.1 _ (by simp))
  isDistance := isValue _ (costly_parts h).2.2.2.1 (by simp)
  isPerStorageCap := price_ok ((costly_parts h).2.2.1 _ (by simp))
  isPerSourceCap := price_ok ((costly_parts h).2.2.1 _ (by simp))
  isPerArea := price_ok ((costly_parts h).2.2.1 _ (by simp))
  isPerYear := price_ok ((costly_parts h).2.2.1 _ (by simp))
  isFraction := price_ok ((costly_parts h).2.2.1 _ (by simp))
  isPerExport := price_ok ((costly_parts h).2.2.1 _ (by simp))
  isPerOut := price_ok ((costly_parts h).2.2.1 _ (by simp))
  isPerIn := price_ok ((costly_parts h).2.2.1 _ (by simp))
  isPerSource := price_ok ((costly_parts h).2.2.1 _ (by simp))
  isHours := isValue _ (costly_parts h).2.2.2.2.1 (by simp)
  isWeight := isValue _ (costly_parts h).2.2.2.2.2 (by simp)

end

/-! ### Operate mode -/

/-- The costs of operate mode: those of what flows cost. -/
def operate : Mini := { CostDemo.model with
  data := ("cost", ["nodes", "techs", "costs"], table [(["a", "pv", "m"], 5110), (["b", "bat", "m"], 1460)]) ::
    CostDemo.model.data
  results := ("cost", ⟨["nodes", "techs", "costs"], fun c => ([["a", "pv", "m"], ["b", "bat", "m"]]).contains c⟩) ::
    CostDemo.model.results }

theorem operate_ok : operate.ok = true := by decide +kernel

theorem operate_costly : costly operate = true := by decide +kernel

def operateExpressions : OperateExpressions operate.W operate.E List.dedup where
  running := value operate "cost_operation_variable"
  cost := value operate "cost"
  isVariable := defines (by decide +kernel)
  isCost := defines (by decide +kernel)

theorem operate_frame : Frame operate.W := ⟨by decide +kernel, by decide +kernel, by decide +kernel⟩

theorem operate_shapes : CostShapes operate.W :=
  ⟨within_ok (by decide +kernel), within_ok (by decide +kernel), within_ok (by decide +kernel),
    within_ok (by decide +kernel)⟩

theorem operate_valid {n t : Label} (hn : n ∈ ["a", "b"]) (ht : t ∈ ["pv", "line", "bat"]) :
    Valid operate.W (operate.point [("nodes", n), ("techs", t)]) :=
  valid_point operate_ok (by
    simp only [List.all_cons, List.all_nil, Bool.and_true, Bool.and_eq_true, decide_eq_true_eq]
    exact ⟨hn, ht⟩)

/-- C95: in operate mode, `pv` costs what it uses and earns, not what it was bought for. -/
example : operateExpressions.cost (operate.point [("nodes", "a"), ("techs", "pv")]) = 365 * (3 * 5 - 1) := by
  rw [C95_operate (setting operate_ok) operate_frame (costs operate_costly) operate_shapes traverses
    operateExpressions (operate_valid (by decide) (by decide))]
  decide +kernel

/-! ### Purchases -/

/-- The costs that depend on purchases. -/
def purchasesOf : List ((String × List String × (List Label → Rat)) × (String × Arr Bool)) :=
  [result "purchased_units" ["nodes", "techs"] [(["a", "pv"], 2), (["a", "line"], 1), (["b", "line"], 1),
     (["a", "wire"], 1), (["b", "wire"], 1)],
   result "cost_investment_purchase" ["nodes", "techs", "costs"] [(["a", "pv", "m"], 10), (["a", "line", "m"], 7),
     (["b", "line", "m"], 7)],
   result "cost_investment" ["nodes", "techs", "costs"]
     [(["a", "pv", "m"], 87), (["a", "line", "m"], 37), (["b", "line", "m"], 37), (["b", "bat", "m"], 15)],
   result "cost_investment_annualised" ["nodes", "techs", "costs"]
     [(["a", "pv", "m"], 87 / 20), (["a", "line", "m"], 37 / 25), (["b", "line", "m"], 37 / 25),
      (["b", "bat", "m"], 3 / 5)],
   result "cost_operation_fixed" ["nodes", "techs", "costs"]
     [(["a", "pv", "m"], 87 / 10), (["a", "line", "m"], 18), (["b", "line", "m"], 18)],
   result "cost" ["nodes", "techs", "costs"]
     [(["a", "pv", "m"], 87 / 20 + 5110 + 87 / 10), (["a", "line", "m"], 37 / 25 + 18),
      (["b", "line", "m"], 37 / 25 + 18), (["b", "bat", "m"], 7303 / 5)]]

def buying : List ((String × List String × (List Label → Rat)) × (String × Input)) :=
  [price "cost_purchase" [(["pv"], 5), (["line"], 6)],
   price "cost_purchase_per_distance" [(["line"], 1), (["wire"], 2)]]

def units : Mini := { CostDemo.model with
  labels := [("nodes", ["a", "b"]), ("techs", ["pv", "line", "bat", "wire"]), ("carriers", ["e"]), ("costs", ["m"]),
    ("timesteps", ["t0", "t1"])]
  data := ("distance", ["techs"], table [(["line"], 8), (["wire"], 5)]) :: buying.map Prod.fst ++
    purchasesOf.map Prod.fst ++ CostDemo.model.data
  inputs := ("base_tech", ⟨.text, ⟨["techs"], fun c => ([(["pv"], Where.Val.str "supply"), (["line"],
    .str "transmission"), (["wire"], .str "transmission"), (["bat"], .str "storage")].lookup c).getD .nan⟩, .nan⟩) ::
    buying.map Prod.snd ++ CostDemo.model.inputs
  results := purchasesOf.map Prod.snd ++ CostDemo.model.results
  items := [["a", "pv", "e"], ["a", "line", "e"], ["b", "line", "e"], ["b", "bat", "e"], ["a", "wire", "e"],
    ["b", "wire", "e"]] }

theorem units_ok : units.ok = true := by decide +kernel

theorem units_costly : costly units = true := by decide +kernel

def purchases : PurchaseModel units.W units.E where
  units := value units "purchased_units"
  perUnit := value units "cost_purchase"
  perUnitDistance := value units "cost_purchase_per_distance"
  isUnits := decision (by decide +kernel)
  isPerUnit := price_ok (by decide +kernel)
  isPerUnitDistance := price_ok (by decide +kernel)

def milpExpressions : MilpExpressions units.W units.E List.dedup where
  flowCap := value units "cost_investment_flow_cap"
  storageCap := value units "cost_investment_storage_cap"
  sourceCap := value units "cost_investment_source_cap"
  area := value units "cost_investment_area_use"
  purchase := value units "cost_investment_purchase"
  invest := value units "cost_investment"
  annual := value units "cost_investment_annualised"
  running := value units "cost_operation_variable"
  fixed := value units "cost_operation_fixed"
  cost := value units "cost"
  isFlowCap := defines (by decide +kernel)
  isStorageCap := defines (by decide +kernel)
  isSourceCap := defines (by decide +kernel)
  isArea := defines (by decide +kernel)
  isPurchase := defines (by decide +kernel)
  isInvest := defines (by decide +kernel)
  isAnnual := defines (by decide +kernel)
  isVariable := defines (by decide +kernel)
  isFixed := defines (by decide +kernel)
  isCost := defines (by decide +kernel)

theorem units_frame : Frame units.W := ⟨by decide +kernel, by decide +kernel, by decide +kernel⟩

theorem units_shapes : CostShapes units.W :=
  ⟨within_ok (by decide +kernel), within_ok (by decide +kernel), within_ok (by decide +kernel),
    within_ok (by decide +kernel)⟩

theorem units_inputs : CostInputs units.W := ⟨within_ok (by decide +kernel), resultWithin_ok (by decide +kernel)⟩

theorem purchase_within : ∀ d ∈ (units.W.input "cost_purchase").arr.dims, d ∈ ["nodes", "techs", "costs"] := by
  decide +kernel

def place (n t : Label) : Point := units.point [("nodes", n), ("techs", t)]

theorem units_valid {n t : Label} (hn : n ∈ ["a", "b"]) (ht : t ∈ ["pv", "line", "bat", "wire"]) :
    Valid units.W (place n t) :=
  valid_point units_ok (by
    simp only [List.all_cons, List.all_nil, Bool.and_true, Bool.and_eq_true, decide_eq_true_eq]
    exact ⟨hn, ht⟩)

/-- C95: with two units at 5, `pv` is an investment of 87, of which 1/20 a year, and one tenth for its operation. -/
example : milpExpressions.invest (place "a" "pv") = 77 + 2 * 5 ∧
    milpExpressions.cost (place "a" "pv") = 87 / 20 + 5110 + 87 / 10 := by
  have hv := units_valid (n := "a") (t := "pv") (by decide) (by decide)
  have hp : Priced units.W (place "a" "pv") := fun h => absurd h (by decide +kernel)
  rw [C95_investment_partial (setting units_ok) units_frame (costs units_costly) units_shapes traverses purchases
    purchase_within milpExpressions hv hp,
    C95_breakdown_partial (setting units_ok) units_frame (costs units_costly) units_shapes traverses purchases
    purchase_within milpExpressions units_inputs (by norm_num) hv hp,
    C95_annual_partial (setting units_ok) units_frame (costs units_costly) units_shapes traverses purchases
    purchase_within milpExpressions units_inputs (by norm_num) (rate := value units "cost_depreciation_rate")
    (interest := value units "cost_interest_rate") (lifetime := value units "lifetime")
    (isValue [] (ds' := ["techs"]) (by decide +kernel) (by simp))
    (isValue [] (ds' := ["techs"]) (by decide +kernel) (by simp))
    (isValue [] (ds' := ["techs"]) (by decide +kernel) (by simp))
    hv hp (r := 1 / 20) (.inl ⟨by decide +kernel, by decide +kernel⟩)]
  exact ⟨by decide +kernel, by decide +kernel⟩

/-- C95: the purchase of the link of length 8 costs `6 + 1 * 8` at its ends together. -/
example : sumOver units.E "nodes" milpExpressions.purchase (place "a" "line") = (6 + 1 * 8) * 1 :=
  C95_link (setting units_ok) units_frame (costs units_costly) units_shapes traverses purchases purchase_within
    milpExpressions.isPurchase (units_valid (by decide) (by decide)) (u := "a") (v := "b") {
      differ := by decide
      nodes := by decide +kernel
      kind := by decide +kernel
      priced := by decide +kernel
      elsewhere := by
        intro l ha hb
        show table _ [l, "line"] = 0
        simp [table, List.lookup_cons, beq_false_of_ne ha, beq_false_of_ne hb]
      isPrice := by decide +kernel
      isPerDistance := by decide +kernel
      isDistance := by decide +kernel
      isUnits := by decide +kernel }

/-- The purchase of the link `wire` of length 5, at 2 per distance, ought to cost 5 at each of its ends, but costs
nothing: the property is false without the condition `Priced`. -/
theorem C95_distance_only : purchases.cost (costs units_costly).distance (place "a" "wire") = 5 ∧
    milpExpressions.purchase (place "a" "wire") = 0 :=
  ⟨by decide +kernel, C95_unpriced (setting units_ok) (costs units_costly) units_shapes traverses purchases
    purchase_within milpExpressions.isPurchase (units_valid (by decide) (by decide)) (by decide +kernel)⟩

end MilpCostDemo
end BaseMath
end Calliope
