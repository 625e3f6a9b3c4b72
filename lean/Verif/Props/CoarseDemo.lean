import Verif.Props.CoarseTools

/-!
# Examples for C114

A supply technology `pv` that depends on the sun, one, `gas`, that cannot be shut down, a battery `bat`, a fixed demand
`load` and a flexible one, `heat`, in four time steps and in two intervals of two time steps each.
-/

namespace Calliope
namespace Coarse

open Grid Infix Expr Expand Build Where BaseMath Time Mini LimitDemo

namespace CoarseDemo

/-- Name, dimensions, values and default of an input. -/
abbrev Table := String × List String × List (List Label × Rat) × Rat

def paramOf (p : Table) : (String × List String × (List Label → Rat)) × (String × Input) :=
  param p.1 p.2.1 p.2.2.1 p.2.2.2

def arrOf (p : Table) : String × Arr (Option Rat) × Rat := (p.1, ⟨p.2.1, fun c => p.2.2.1.lookup c⟩, p.2.2.2)

def mini (techs times : List Label) (tables : List Table)
    (results : List ((String × List String × (List Label → Rat)) × (String × Arr Bool))) (inputs : List (String × Input))
    (items : List (List Label)) : Mini where
  labels := [("nodes", ["a"]), ("techs", techs), ("carriers", ["e"]), ("costs", ["m"]), ("timesteps", times)]
  data := tables.map (fun p => (paramOf p).1) ++ results.map Prod.fst
  lookups := []
  inputs := tables.map (fun p => (paramOf p).2) ++ inputs
  results := results.map Prod.snd
  along := ntc
  items := items
  config := [("ensure_feasibility", .bool false)]

/-- Inputs that are not dated. -/
def plain : List Table :=
  [("flow_cap_min", ["techs"], [], 0), ("flow_cap_max", ["techs"], [], 1000), ("export_min", ["techs"], [], 0),
   ("export_max", ["techs"], [], 1000), ("source_cap_min", ["techs"], [], 0), ("source_cap_max", ["techs"], [], 1000),
   ("storage_cap_min", ["techs"], [], 0), ("storage_cap_max", ["techs"], [], 1000), ("area_use_min", ["techs"], [], 0),
   ("area_use_max", ["techs"], [], 1000), ("flow_out_parasitic_eff", ["techs"], [], 1),
   ("flow_out_eff", ["techs"], [(["pv"], 1 / 2)], 1), ("source_eff", ["techs"], [], 1),
   ("flow_out_eff_per_distance", ["techs"], [], 1), ("flow_in_eff_per_distance", ["techs"], [], 1),
   ("distance", ["techs"], [], 1), ("storage_initial", ["techs"], [(["bat"], 1 / 2)], 0),
   ("storage_discharge_depth", ["techs"], [], 0), ("flow_out_min_relative", ["techs"], [(["gas"], 1 / 2)], 0),
   ("source_use_equals", ["techs"], [], 0), ("lifetime", ["techs"], [], 25),
   ("cost_flow_cap", ["techs"], [(["pv"], 10)], 0), ("cost_flow_cap_per_distance", ["techs"], [], 0),
   ("cost_storage_cap", ["techs"], [(["bat"], 3)], 0), ("cost_source_cap", ["techs"], [], 0),
   ("cost_area_use", ["techs"], [], 0), ("cost_om_annual", ["techs"], [(["pv"], 6)], 0),
   ("cost_om_annual_investment_fraction", ["techs"], [], 0), ("cost_export", ["techs"], [], 0),
   ("cost_flow_out", ["techs"], [(["pv"], 1)], 0), ("cost_flow_in", ["techs"], [(["bat"], 1)], 0),
   ("cost_source_use", ["techs"], [(["pv"], 3)], 0), ("cost_depreciation_rate", ["techs"], [(["pv"], 1 / 20)], 0),
   ("cost_interest_rate", ["techs"], [], 0)]

/-- What the examples agree on, besides numbers. -/
def kinds : List (String × Input) :=
  [text "base_tech" ["techs"] [(["pv"], "supply"), (["gas"], "supply"), (["bat"], "storage"), (["load"], "demand"),
     (["heat"], "demand")] .nan,
   text "sink_unit" ["techs"] [(["heat"], "per_cap")] (.str "absolute"),
   text "source_unit" ["techs"] [] (.str "absolute"),
   carries "carrier_out" [["a", "pv", "e"], ["a", "gas", "e"], ["a", "bat", "e"]],
   carries "carrier_in" [["a", "bat", "e"], ["a", "load", "e"], ["a", "heat", "e"]]]

def tt : List String := ["techs", "timesteps"]

/-- One number for each of some labels. -/
def series (before : List Label) (times : List Label) (l : List Rat) : List (List Label × Rat) :=
  (times.zip l).map (fun p => (before ++ [p.1], p.2))

/-! ## A model without losses -/

def t4 : List Label := ["t0", "t1", "t2", "t3"]
def t2 : List Label := ["T0", "T1"]

def steps (T : Label) : List Label :=
  if T = "T0" then ["t0", "t1"] else if T = "T1" then ["t2", "t3"] else []

def steady : List Table :=
  plain ++ [("flow_in_eff", ["techs"], [], 1), ("storage_loss", ["techs"], [], 0)]

def fineTables : List Table := steady ++
  [("sink_use_equals", tt, series ["load"] t4 [3, 1, 3, 2], 0),
   ("sink_use_max", tt, series ["heat"] t4 [1 / 2, 1 / 2, 1 / 2, 1], 1000),
   ("sink_use_min", tt, series ["heat"] t4 [1 / 4, 1 / 4, 1 / 8, 1 / 4], 0),
   ("source_use_max", tt, series ["pv"] t4 [5, 5, 9, 1], 1000),
   ("source_use_min", tt, series ["gas"] t4 [1 / 2, 1 / 2, 1, 1 / 2], 0),
   ("timestep_resolution", ["timesteps"], series [] t4 [1, 1, 2, 1], 1),
   ("timestep_weights", ["timesteps"], series [] t4 [365, 365, 100, 100], 1)]

def coarseTables : List Table := steady ++
  [("sink_use_equals", tt, series ["load"] t2 [4, 5], 0),
   ("sink_use_max", tt, series ["heat"] t2 [1, 3 / 2], 1000),
   ("sink_use_min", tt, series ["heat"] t2 [1 / 2, 3 / 8], 0),
   ("source_use_max", tt, series ["pv"] t2 [10, 10], 1000),
   ("source_use_min", tt, series ["gas"] t2 [1, 3 / 2], 0),
   ("timestep_resolution", ["timesteps"], series [] t2 [2, 3], 1),
   ("timestep_weights", ["timesteps"], series [] t2 [365, 100], 1)]

/-- The plan: capacities and costs. -/
def built : List ((String × List String × (List Label → Rat)) × (String × Arr Bool)) :=
  [result "flow_cap" ntc [(["a", "pv", "e"], 2), (["a", "gas", "e"], 2), (["a", "bat", "e"], 2), (["a", "load", "e"], 4),
     (["a", "heat", "e"], 4)],
   result "link_flow_cap" ["techs"] [], result "area_use" nt [], result "storage_cap" nt [(["a", "bat"], 4)],
   result "source_cap" nt [(["a", "pv"], 100), (["a", "gas"], 100)], result "flow_export" ntct [],
   result "unmet_demand" ["nodes", "carriers", "timesteps"] [],
   result "unused_supply" ["nodes", "carriers", "timesteps"] [],
   result "cost_investment_flow_cap" ["nodes", "techs", "carriers", "costs"] [(["a", "pv", "e", "m"], 20)],
   result "cost_investment_storage_cap" ["nodes", "techs", "costs"] [(["a", "bat", "m"], 12)],
   result "cost_investment_source_cap" ["nodes", "techs", "costs"] [],
   result "cost_investment_area_use" ["nodes", "techs", "costs"] [],
   result "cost_investment" ["nodes", "techs", "costs"] [(["a", "pv", "m"], 20), (["a", "bat", "m"], 12)],
   result "cost_investment_annualised" ["nodes", "techs", "costs"]
     [(["a", "pv", "m"], 103 / 876), (["a", "bat", "m"], 103 / 1825)],
   result "cost_operation_fixed" ["nodes", "techs", "costs"] [(["a", "pv", "m"], 103 / 73)],
   result "cost" ["nodes", "techs", "costs"] [(["a", "pv", "m"], 13020 + 1339 / 876), (["a", "bat", "m"], 565 + 103 / 1825)]]

/-- The plan in time. -/
def dispatch (times : List Label) (pv pvs gas batOut batIn load heat level pvCost batCost : List Rat) :
    List ((String × List String × (List Label → Rat)) × (String × Arr Bool)) :=
  [result "flow_out" ntct (series ["a", "pv", "e"] times pv ++ series ["a", "gas", "e"] times gas ++
     series ["a", "bat", "e"] times batOut),
   result "flow_out_inc_eff" ntct (series ["a", "pv", "e"] times pvs ++ series ["a", "gas", "e"] times gas ++
     series ["a", "bat", "e"] times batOut),
   result "flow_in" ntct (series ["a", "bat", "e"] times batIn ++ series ["a", "load", "e"] times load ++
     series ["a", "heat", "e"] times heat),
   result "flow_in_inc_eff" ntct (series ["a", "bat", "e"] times batIn ++ series ["a", "load", "e"] times load ++
     series ["a", "heat", "e"] times heat),
   result "source_use" ntt (series ["a", "pv"] times pvs ++ series ["a", "gas"] times gas),
   result "storage" ntt (series ["a", "bat"] times level),
   result "cost_operation_variable" ["nodes", "techs", "costs", "timesteps"]
     (series ["a", "pv", "m"] times pvCost ++ series ["a", "bat", "m"] times batCost)]

def items : List (List Label) :=
  [["a", "pv", "e"], ["a", "gas", "e"], ["a", "bat", "e"], ["a", "load", "e"], ["a", "heat", "e"]]

def techs : List Label := ["pv", "gas", "bat", "load", "heat"]

def fine : Mini := mini techs t4 fineTables
  (built ++ dispatch t4 [2, 2, 4, 0] [4, 4, 8, 0] [1, 1, 2, 1] [1, 0, 0, 2] [0, 1, 2, 0] [3, 1, 3, 2] [1, 1, 1, 1]
    [1, 2, 4, 2] [5110, 5110, 2800, 0] [0, 365, 200, 0]) kinds items

def coarse : Mini := mini techs t2 coarseTables
  (built ++ dispatch t2 [4, 4] [8, 8] [2, 3] [1, 2] [1, 2] [4, 5] [2, 2] [2, 2] [10220, 2800] [365, 200]) kinds items

theorem fine_fit : fit fine = true := by decide +kernel
theorem coarse_fit : fit coarse = true := by decide +kernel
theorem fine_built : ∀ c ∈ SupplyDemo.constraints, isOk (buildConstraint fine.W fine.E List.dedup c) = true := by
  decide +kernel
theorem coarse_built : ∀ c ∈ SupplyDemo.constraints, isOk (buildConstraint coarse.W coarse.E List.dedup c) = true := by
  decide +kernel
theorem fine_holds : ∀ c ∈ SupplyDemo.constraints, fine.holds c = true := by decide +kernel

theorem S : Setting fine.W fine.E power := Mini.setting (fit_ok fine_fit)
theorem S' : Setting coarse.W coarse.E power := Mini.setting (fit_ok coarse_fit)

theorem con {c : Component Rat} (hc : c ∈ SupplyDemo.constraints) :
    buildConstraint fine.W fine.E List.dedup c = .ok (fine.con c) := con_ok (fine_built c hc)
theorem con' {c : Component Rat} (hc : c ∈ SupplyDemo.constraints) :
    buildConstraint coarse.W coarse.E List.dedup c = .ok (coarse.con c) := con_ok (coarse_built c hc)

theorem relation : Coarser fine.W coarse.W steps :=
  coarser_ok (by decide +kernel) (by decide +kernel) (by
    intro d hd
    unfold Mini.coords fine coarse mini
    simp only [List.lookup_cons, List.lookup_nil, beq_false_of_ne hd]) rfl rfl rfl (by decide)

theorem throughout {c : Component Rat} (hc : c ∈ SupplyDemo.constraints) {ρ : Point} (hρ : Valid coarse.W ρ) :
    Throughout (fine.con c) steps ρ := fun _ ht => con_holds (fine_holds c hc) (relation.valid hρ ht)

theorem sums (n : String) (h : adds fine coarse steps n ntct = true) :
    Added coarse.W steps (fine.quantity n) (coarse.quantity n) := adds_ok ntct h
theorem stays (n : String) (h : keeps fine coarse steps n ntct = true) :
    Kept coarse.W steps (fine.quantity n) (coarse.quantity n) := keeps_ok ntct h

theorem totals : Totals steps (plantOf fine_fit) (plantOf coarse_fit) where
  out := sums "flow_out" (by decide +kernel)
  inn := sums "flow_in" (by decide +kernel)
  exp := sums "flow_export" (by decide +kernel)
  source := sums "source_use" (by decide +kernel)
  cap := stays "flow_cap" (by decide +kernel)
  sourceCap := stays "source_cap" (by decide +kernel)

theorem area : Kept coarse.W steps (needsOf fine_fit).area (needsOf coarse_fit).area :=
  stays "area_use" (by decide +kernel)

/-- The data of an input, before. -/
def dataOf (n : String) : Arr (Option Rat) := (((fineTables.map arrOf).lookup n).getD (⟨[], fun _ => none⟩, 0)).1

theorem resampledIn {n : String} {d : Rat} (h : holdsData fine n (dataOf n) d ntct = true)
    (h' : holdsData coarse n (resampled steps (methodOf n) (dataOf n)) d ntct = true) :
    Resampled fine.W coarse.W fine.E coarse.E steps n (dataOf n) := resampled_ok ntct h h'

theorem even {names : List String} (h : evens fine coarse steps ntct names (fineTables.map arrOf) = true) {ρ : Point}
    (hρ : Valid coarse.W ρ) : Even fine.W coarse.W fine.E coarse.E steps names ρ := evens_ok ntct _ h hρ

theorem hours {ρ : Point} (hρ : Valid coarse.W ρ) :
    Filled fine.W coarse.W fine.E coarse.E steps "timestep_resolution" ρ := by
  refine ⟨dataOf "timestep_resolution", resampledIn (d := 1) (by decide +kernel) (by decide +kernel), by decide +kernel, ?_⟩
  intro t ht
  have hv := hρ "timesteps"
  have hm : ∀ T ∈ ["T0", "T1"], ∀ t ∈ steps T, (dataOf "timestep_resolution").val [t] ≠ none := by decide +kernel
  have := hm _ hv t ht
  show (dataOf "timestep_resolution").val [Expr.set ρ "timesteps" t "timesteps"] ≠ none
  rw [BaseMath.set_at]
  exact this

/-- A technology in the second interval. -/
def spot (t : Label) : Point := coarse.point [("techs", t), ("timesteps", "T1")]
theorem spot_valid {t : Label} (ht : t ∈ techs) : Valid coarse.W (spot t) :=
  valid_point (fit_ok coarse_fit) (by
    simp only [List.all_cons, List.all_nil, Bool.and_true, Bool.and_eq_true, decide_eq_true_eq]
    exact ⟨ht, by decide⟩)

theorem alike {n : String} (h : coarse.W.input n = fine.W.input n)
    (h' : "timesteps" ∉ (fine.W.input n).arr.dims) : Alike fine.W coarse.W n := ⟨h, h'⟩

theorem kind : Alike fine.W coarse.W "base_tech" := alike rfl (by decide +kernel)

/-- C114_outflow, C114_inflow -/
example : ∀ t ∈ techs, Satisfied (coarse.con flowOutMax) (spot t) ∧ Satisfied (coarse.con flowInMax) (spot t) :=
  fun _ ht => ⟨C114_outflow S S' traverses relation totals (alike rfl (by decide +kernel))
      (within_ok (by decide +kernel)) (con (by simp [SupplyDemo.constraints])) (con' (by simp [SupplyDemo.constraints]))
      (spot_valid ht) (hours (spot_valid ht)) (even (by decide +kernel) (spot_valid ht))
      (throughout (by simp [SupplyDemo.constraints]) (spot_valid ht)),
    C114_inflow S S' traverses relation totals (alike rfl (by decide +kernel))
      (within_ok (by decide +kernel)) (con (by simp [SupplyDemo.constraints])) (con' (by simp [SupplyDemo.constraints]))
      (spot_valid ht) (hours (spot_valid ht)) (throughout (by simp [SupplyDemo.constraints]) (spot_valid ht))⟩

/-- C114_least, C114_source_max, C114_source_least -/
example : Satisfied (coarse.con flowOutMin) (spot "gas") ∧ Satisfied (coarse.con sourceMax) (spot "gas") ∧
    Satisfied (coarse.con balanceSupplyMinUse) (spot "gas") := by
  have hv := spot_valid (t := "gas") (by decide)
  refine ⟨C114_least S S' traverses relation totals (has_ok (n := "flow_out_min_relative") (by decide +kernel))
      (has_ok (n := "flow_out_min_relative") (by decide +kernel))
      (within_ok (by decide +kernel)) (within_ok (by decide +kernel)) (con (by simp [SupplyDemo.constraints]))
      (con' (by simp [SupplyDemo.constraints])) hv (hours hv) (even (by decide +kernel) hv)
      (throughout (by simp [SupplyDemo.constraints]) hv),
    C114_source_max S S' traverses relation totals rfl (con (by simp [SupplyDemo.constraints]))
      (con' (by simp [SupplyDemo.constraints])) hv (hours hv) (throughout (by simp [SupplyDemo.constraints]) hv),
    C114_source_least S S' traverses relation totals area (con (by simp [SupplyDemo.constraints]))
      (con' (by simp [SupplyDemo.constraints])) hv (in_model hv ["a", "gas", "e"] (by decide +kernel) (by decide))
      (by decide +kernel) (.inr (.inr (by decide +kernel))) kind (alike rfl (by decide +kernel))
      ⟨dataOf "source_use_min", resampledIn (d := 0) (by decide +kernel) (by decide +kernel), by decide +kernel,
        by decide +kernel⟩
      ⟨dataOf "source_use_equals", resampledIn (d := 0) (by decide +kernel) (by decide +kernel), by decide +kernel⟩
      (throughout (by simp [SupplyDemo.constraints]) hv)⟩

theorem inflows : Defines fine.W fine.E List.dedup flowInIncEff (fine.quantity "flow_in_inc_eff") :=
  definesOf (c := flowInIncEff) (by decide +kernel)
theorem inflows' : Defines coarse.W coarse.E List.dedup flowInIncEff (coarse.quantity "flow_in_inc_eff") :=
  definesOf (c := flowInIncEff) (by decide +kernel)
theorem outflows : Defines fine.W fine.E List.dedup flowOutIncEff (fine.quantity "flow_out_inc_eff") :=
  definesOf (c := flowOutIncEff) (by decide +kernel)
theorem outflows' : Defines coarse.W coarse.E List.dedup flowOutIncEff (coarse.quantity "flow_out_inc_eff") :=
  definesOf (c := flowOutIncEff) (by decide +kernel)

/-- C114_demand: the fixed demand. -/
example : Satisfied (coarse.con balanceDemand) (spot "load") := by
  have hv := spot_valid (t := "load") (by decide)
  exact C114_demand S S' traverses relation totals area (effsOf fine_fit) (effsOf coarse_fit) inflows inflows'
    (con (by simp [SupplyDemo.constraints])) (con' (by simp [SupplyDemo.constraints])) hv
    (in_model hv ["a", "load", "e"] (by decide +kernel) (by decide)) (by decide +kernel)
    (.inr (.inr (by decide +kernel))) kind (alike rfl (by decide +kernel)) (even (by decide +kernel) hv)
    (.inl ⟨dataOf "sink_use_equals", resampledIn (d := 0) (by decide +kernel) (by decide +kernel), by decide +kernel,
        by decide +kernel⟩)
    (throughout (by simp [SupplyDemo.constraints]) hv)

/-- C114_demand, C114_demand_least: the flexible demand, per capacity. -/
example : Satisfied (coarse.con balanceDemand) (spot "heat") ∧ Satisfied (coarse.con balanceDemandMinUse) (spot "heat") := by
  have hv := spot_valid (t := "heat") (by decide)
  have hn : Empty fine.W coarse.W fine.E coarse.E steps "sink_use_equals" (spot "heat") :=
    ⟨dataOf "sink_use_equals", resampledIn (d := 0) (by decide +kernel) (by decide +kernel), by decide +kernel⟩
  exact ⟨C114_demand S S' traverses relation totals area (effsOf fine_fit) (effsOf coarse_fit) inflows inflows'
      (con (by simp [SupplyDemo.constraints])) (con' (by simp [SupplyDemo.constraints])) hv
      (in_model hv ["a", "heat", "e"] (by decide +kernel) (by decide)) (by decide +kernel)
      (.inr (.inl (by decide +kernel))) kind (alike rfl (by decide +kernel)) (even (by decide +kernel) hv)
      (.inr ⟨hn, .inl ⟨dataOf "sink_use_max", resampledIn (d := 1000) (by decide +kernel) (by decide +kernel),
        by decide +kernel, by decide +kernel⟩⟩)
      (throughout (by simp [SupplyDemo.constraints]) hv),
    C114_demand_least S S' traverses relation totals area (effsOf fine_fit) (effsOf coarse_fit) inflows inflows'
      (con (by simp [SupplyDemo.constraints])) (con' (by simp [SupplyDemo.constraints])) hv
      (in_model hv ["a", "heat", "e"] (by decide +kernel) (by decide)) (by decide +kernel)
      (.inr (.inl (by decide +kernel))) kind (alike rfl (by decide +kernel)) (even (by decide +kernel) hv)
      ⟨dataOf "sink_use_min", resampledIn (d := 0) (by decide +kernel) (by decide +kernel),
        by decide +kernel, by decide +kernel⟩ hn
      (throughout (by simp [SupplyDemo.constraints]) hv)⟩

/-- C114_source, C114_supply: the sun. -/
example : Satisfied (coarse.con sourceAvailabilitySupply) (spot "pv") ∧
    Satisfied (coarse.con balanceSupplyNoStorage) (spot "pv") := by
  have hv := spot_valid (t := "pv") (by decide)
  refine ⟨C114_source S S' traverses relation totals area (con (by simp [SupplyDemo.constraints]))
      (con' (by simp [SupplyDemo.constraints])) hv (in_model hv ["a", "pv", "e"] (by decide +kernel) (by decide))
      ⟨_, rfl, by decide +kernel⟩ (fun t ht => ⟨_, rfl, ?_⟩) (.inr (.inr (by decide +kernel)))
      (alike rfl (by decide +kernel))
      (.inr ⟨⟨dataOf "source_use_equals", resampledIn (d := 0) (by decide +kernel) (by decide +kernel), by decide +kernel⟩,
        .inl ⟨dataOf "source_use_max", resampledIn (d := 1000) (by decide +kernel) (by decide +kernel),
          by decide +kernel, by decide +kernel⟩⟩)
      (throughout (by simp [SupplyDemo.constraints]) hv),
    C114_supply S S' traverses relation totals (needsOf fine_fit) (needsOf coarse_fit) (effsOf fine_fit)
      (effsOf coarse_fit) outflows outflows' (con (by simp [SupplyDemo.constraints]))
      (con' (by simp [SupplyDemo.constraints])) hv (in_model hv ["a", "pv", "e"] (by decide +kernel) (by decide))
      (by decide +kernel) (by unfold BaseMath.Flag; decide +kernel) (by decide +kernel) kind
      (alike rfl (by decide +kernel)) (even (by decide +kernel) hv) (even (by decide +kernel) hv)
      (throughout (by simp [SupplyDemo.constraints]) hv)⟩
  revert t
  decide +kernel

/-- C114_balance -/
example : Satisfied (coarse.con systemBalance) (spot "pv") :=
  C114_balance S S' traverses relation (D := flowsOf fine_fit) (D' := flowsOf coarse_fit)
    (sums "flow_out" (by decide +kernel)) (sums "flow_in" (by decide +kernel)) (sums "flow_export" (by decide +kernel))
    (sums "unmet_demand" (by decide +kernel)) (sums "unused_supply" (by decide +kernel)) (con (by simp [SupplyDemo.constraints]))
    (con' (by simp [SupplyDemo.constraints])) (spot_valid (by decide))
    (throughout (by simp [SupplyDemo.constraints]) (spot_valid (by decide)))

theorem no_clusters {M : Mini} (h : M.inputs.lookup "cluster_first_timestep" = none) (σ : Point) :
    ¬ BaseMath.Flag M.W "cluster_first_timestep" σ := by
  have e : M.W.input "cluster_first_timestep" = ⟨.number, scalar .nan, .nan⟩ := by simp [Mini.W, h]
  unfold BaseMath.Flag
  rw [e]
  rintro (h | h) <;> cases h

/-- C114_storage: the battery. -/
example : Satisfied (coarse.con balanceStorage) (spot "bat") :=
  C114_storage S S' traverses relation (D := storeOf fine_fit) (D' := storeOf coarse_fit) (fit_storage fine_fit)
    (fit_storage coarse_fit) (ends_ok (F := fine) (n := "storage") ntct (by decide +kernel))
    (sums "flow_out_inc_eff" (by decide +kernel)) (sums "flow_in_inc_eff" (by decide +kernel))
    (stays "storage_initial" (by decide +kernel)) (stays "storage_cap" (by decide +kernel))
    (fun _ => rfl) (fun _ => rfl) (fun _ => one_pow _) kind (alike rfl (by decide +kernel))
    (alike rfl (by decide +kernel)) (no_clusters rfl) (no_clusters rfl)
    (con (by simp [SupplyDemo.constraints])) (con' (by simp [SupplyDemo.constraints])) (spot_valid (by decide))
    (throughout (by simp [SupplyDemo.constraints]) (spot_valid (by decide)))

/-- A model with prices. -/
def priced (M : Mini) : Bool :=
  (["flow_cap"].all (M.decides ntc)) && ["storage_cap", "source_cap", "area_use"].all (M.decides nt) &&
  ["flow_out", "flow_in", "flow_export"].all (M.decides ntct) && ["source_use"].all (M.decides ntt) &&
  ["cost_flow_cap", "cost_flow_cap_per_distance", "cost_storage_cap", "cost_source_cap", "cost_area_use",
    "cost_om_annual", "cost_om_annual_investment_fraction", "cost_export", "cost_flow_out", "cost_flow_in",
    "cost_source_use"].all (M.prices ["techs"])

section
variable {M : Mini} (h : priced M = true)
include h

theorem priced_cap : ∀ n ∈ ["flow_cap"], Decision M.W M.E n ntc (M.quantity n) := by
  simp only [priced, Bool.and_eq_true] at h
  obtain ⟨⟨⟨⟨h, _⟩, _⟩, _⟩, _⟩ := h
  exact fun n hn => decides_ok (List.all_eq_true.1 h n hn) (fun _ hg => quantity_is hg)
theorem priced_nt : ∀ n ∈ ["storage_cap", "source_cap", "area_use"], Decision M.W M.E n nt (M.quantity n) := by
  simp only [priced, Bool.and_eq_true] at h
  obtain ⟨⟨⟨⟨_, h⟩, _⟩, _⟩, _⟩ := h
  exact fun n hn => decides_ok (List.all_eq_true.1 h n hn) (fun _ hg => quantity_is hg)
theorem priced_flow : ∀ n ∈ ["flow_out", "flow_in", "flow_export"], Decision M.W M.E n ntct (M.quantity n) := by
  simp only [priced, Bool.and_eq_true] at h
  obtain ⟨⟨⟨⟨_, _⟩, h⟩, _⟩, _⟩ := h
  exact fun n hn => decides_ok (List.all_eq_true.1 h n hn) (fun _ hg => quantity_is hg)
theorem priced_source : ∀ n ∈ ["source_use"], Decision M.W M.E n ntt (M.quantity n) := by
  simp only [priced, Bool.and_eq_true] at h
  obtain ⟨⟨⟨⟨_, _⟩, _⟩, h⟩, _⟩ := h
  exact fun n hn => decides_ok (List.all_eq_true.1 h n hn) (fun _ hg => quantity_is hg)
theorem priced_price : ∀ n ∈ ["cost_flow_cap", "cost_flow_cap_per_distance", "cost_storage_cap", "cost_source_cap",
    "cost_area_use", "cost_om_annual", "cost_om_annual_investment_fraction", "cost_export", "cost_flow_out",
    "cost_flow_in", "cost_source_use"], Price M.W M.E n (M.quantity n) := by
  simp only [priced, Bool.and_eq_true] at h
  obtain ⟨⟨⟨⟨_, _⟩, _⟩, _⟩, h⟩ := h
  exact fun n hn => prices_ok (List.all_eq_true.1 h n hn) (fun _ _ hg => quantity_is hg)

def costsOf (h1 : M.has "distance" [] = true) (h2 : M.has "timestep_resolution" ["timesteps"] = true)
    (h3 : M.has "timestep_weights" ["timesteps"] = true) : CostModel M.W M.E where
  flowCap := M.quantity "flow_cap"
  storageCap := M.quantity "storage_cap"
  sourceCap := M.quantity "source_cap"
  area := M.quantity "area_use"
  out := M.quantity "flow_out"
  inn := M.quantity "flow_in"
  exp := M.quantity "flow_export"
  source := M.quantity "source_use"
  perFlowCap := M.quantity "cost_flow_cap"
  perDistance := M.quantity "cost_flow_cap_per_distance"
  distance := M.quantity "distance"
  perStorageCap := M.quantity "cost_storage_cap"
  perSourceCap := M.quantity "cost_source_cap"
  perArea := M.quantity "cost_area_use"
  perYear := M.quantity "cost_om_annual"
  fraction := M.quantity "cost_om_annual_investment_fraction"
  perExport := M.quantity "cost_export"
  perOut := M.quantity "cost_flow_out"
  perIn := M.quantity "cost_flow_in"
  perSource := M.quantity "cost_source_use"
  hours := M.quantity "timestep_resolution"
  weight := M.quantity "timestep_weights"
  isFlowCap := priced_cap h _ (by simp)
  isStorageCap := priced_nt h _ (by simp)
  isSourceCap := priced_nt h _ (by simp)
  isArea := priced_nt h _ (by simp)
  isOut := priced_flow h _ (by simp)
  isInn := priced_flow h _ (by simp)
  isExp := priced_flow h _ (by simp)
  isSource := priced_source h _ (by simp)
  isPerFlowCap := priced_price h _ (by simp)
  isPerDistance := priced_price h _ (by simp)
  isDistance := has_ok h1
  isPerStorageCap := priced_price h _ (by simp)
  isPerSourceCap := priced_price h _ (by simp)
  isPerArea := priced_price h _ (by simp)
  isPerYear := priced_price h _ (by simp)
  isFraction := priced_price h _ (by simp)
  isPerExport := priced_price h _ (by simp)
  isPerOut := priced_price h _ (by simp)
  isPerIn := priced_price h _ (by simp)
  isPerSource := priced_price h _ (by simp)
  isHours := has_ok h2
  isWeight := has_ok h3

end

theorem fine_priced : priced fine = true := by decide +kernel
theorem coarse_priced : priced coarse = true := by decide +kernel

def costs : CostModel fine.W fine.E :=
  costsOf fine_priced (by decide +kernel) (by decide +kernel) (by decide +kernel)
def costs' : CostModel coarse.W coarse.E :=
  costsOf coarse_priced (by decide +kernel) (by decide +kernel) (by decide +kernel)

def expressions : CostExpressions fine.W fine.E List.dedup where
  flowCap := fine.quantity "cost_investment_flow_cap"
  storageCap := fine.quantity "cost_investment_storage_cap"
  sourceCap := fine.quantity "cost_investment_source_cap"
  area := fine.quantity "cost_investment_area_use"
  invest := fine.quantity "cost_investment"
  annual := fine.quantity "cost_investment_annualised"
  running := fine.quantity "cost_operation_variable"
  fixed := fine.quantity "cost_operation_fixed"
  cost := fine.quantity "cost"
  isFlowCap := definesOf (by decide +kernel)
  isStorageCap := definesOf (by decide +kernel)
  isSourceCap := definesOf (by decide +kernel)
  isArea := definesOf (by decide +kernel)
  isInvest := definesOf (by decide +kernel)
  isAnnual := definesOf (by decide +kernel)
  isVariable := definesOf (by decide +kernel)
  isFixed := definesOf (by decide +kernel)
  isCost := definesOf (by decide +kernel)

def expressions' : CostExpressions coarse.W coarse.E List.dedup where
  flowCap := coarse.quantity "cost_investment_flow_cap"
  storageCap := coarse.quantity "cost_investment_storage_cap"
  sourceCap := coarse.quantity "cost_investment_source_cap"
  area := coarse.quantity "cost_investment_area_use"
  invest := coarse.quantity "cost_investment"
  annual := coarse.quantity "cost_investment_annualised"
  running := coarse.quantity "cost_operation_variable"
  fixed := coarse.quantity "cost_operation_fixed"
  cost := coarse.quantity "cost"
  isFlowCap := definesOf (by decide +kernel)
  isStorageCap := definesOf (by decide +kernel)
  isSourceCap := definesOf (by decide +kernel)
  isArea := definesOf (by decide +kernel)
  isInvest := definesOf (by decide +kernel)
  isAnnual := definesOf (by decide +kernel)
  isVariable := definesOf (by decide +kernel)
  isFixed := definesOf (by decide +kernel)
  isCost := definesOf (by decide +kernel)

theorem costTotals : CostTotals steps costs costs' where
  out := sums "flow_out" (by decide +kernel)
  inn := sums "flow_in" (by decide +kernel)
  exp := sums "flow_export" (by decide +kernel)
  source := sums "source_use" (by decide +kernel)
  flowCap := stays "flow_cap" (by decide +kernel)
  storageCap := stays "storage_cap" (by decide +kernel)
  sourceCap := stays "source_cap" (by decide +kernel)
  area := stays "area_use" (by decide +kernel)

/-- C114_cost: what the sun costs. -/
example : expressions'.cost (spot "pv") = expressions.cost (Expr.set (spot "pv") "timesteps" "t2") ∧
    expressions.cost (Expr.set (spot "pv") "timesteps" "t2") = 13020 + 1339 / 876 :=
  ⟨C114_cost S S' traverses relation costTotals kind (fun _ hv => even (by decide +kernel) hv) (fun _ hv => hours hv)
    ⟨by decide +kernel, by decide +kernel, by decide +kernel⟩ ⟨by decide +kernel, by decide +kernel, by decide +kernel⟩
    ⟨within_ok (by decide +kernel), within_ok (by decide +kernel), within_ok (by decide +kernel),
      within_ok (by decide +kernel)⟩
    ⟨within_ok (by decide +kernel), within_ok (by decide +kernel), within_ok (by decide +kernel),
      within_ok (by decide +kernel)⟩
    ⟨within_ok (by decide +kernel), resultWithin_ok (by decide +kernel)⟩
    ⟨within_ok (by decide +kernel), resultWithin_ok (by decide +kernel)⟩ expressions expressions'
    (has_ok (n := "cost_depreciation_rate") (by decide +kernel)) (has_ok (n := "cost_interest_rate") (by decide +kernel))
    (has_ok (n := "lifetime") (by decide +kernel)) (has_ok (n := "cost_depreciation_rate") (by decide +kernel))
    (has_ok (n := "cost_interest_rate") (by decide +kernel)) (has_ok (n := "lifetime") (by decide +kernel))
    (spot_valid (by decide)) (by decide) (r := 1 / 20) (.inl ⟨by decide +kernel, by decide +kernel⟩)
    (.inl ⟨by decide +kernel, by decide +kernel⟩), by decide +kernel⟩

end CoarseDemo
end Coarse
end Calliope
