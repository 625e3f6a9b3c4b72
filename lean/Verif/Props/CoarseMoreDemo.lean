import Verif.Props.CoarseMore
import Verif.Props.CoarseDemo

/-!
# Examples for C114: two nodes, two carriers

At node `a` the plant `gas` feeds the line `line` to node `b` and exports; it may not ramp fast.  At node `b` there are a
battery `bat`, a boiler `boiler` and a demand for heat `load`.  Four hours become two intervals of two hours.
-/

namespace Calliope
namespace Coarse

open Grid Infix Expr Expand Build Where BaseMath Time Mini LimitDemo CoarseDemo

namespace CoarseMoreDemo

def tables (more : List Table) : List Table :=
  [("flow_cap_min", ["techs"], [], 0), ("flow_cap_max", ["techs"], [], 1000), ("export_min", ["techs"], [], 0),
   ("export_max", ["techs"], [], 1000), ("source_cap_min", ["techs"], [], 0), ("source_cap_max", ["techs"], [], 1000),
   ("storage_cap_min", ["techs"], [], 0), ("storage_cap_max", ["techs"], [], 1000), ("area_use_min", ["techs"], [], 0),
   ("area_use_max", ["techs"], [], 1000), ("flow_out_parasitic_eff", ["techs"], [], 1),
   ("flow_out_eff", ["techs"], [(["line"], 1 / 2), (["boiler"], 1 / 2)], 1), ("source_eff", ["techs"], [], 1),
   ("flow_out_eff_per_distance", ["techs"], [], 1), ("flow_in_eff_per_distance", ["techs"], [], 1),
   ("flow_in_eff", ["techs"], [], 1), ("storage_loss", ["techs"], [], 0),
   ("distance", ["techs"], [], 1), ("storage_initial", ["techs"], [(["bat"], 1 / 2)], 0),
   ("storage_discharge_depth", ["techs"], [(["bat"], 1 / 4)], 0), ("flow_ramping", ["techs"], [(["gas"], 1 / 4)], 1),
   ("source_use_equals", ["techs"], [], 0), ("source_use_max", ["techs"], [], 1000),
   ("source_use_min", ["techs"], [], 0), ("sink_use_max", ["techs"], [], 1000), ("sink_use_min", ["techs"], [], 0)] ++
  more

def fineTables : List Table := tables
  [("sink_use_equals", tt, series ["load"] t4 [1 / 4, 1 / 4, 1 / 2, 1], 0),
   ("timestep_resolution", ["timesteps"], series [] t4 [1, 1, 1, 1], 1)]

def coarseTables : List Table := tables
  [("sink_use_equals", tt, series ["load"] t2 [1 / 2, 3 / 2], 0),
   ("timestep_resolution", ["timesteps"], series [] t2 [2, 2], 1)]

def kinds : List (String × Input) :=
  [text "base_tech" ["techs"] [(["gas"], "supply"), (["line"], "transmission"), (["bat"], "storage"),
     (["boiler"], "conversion"), (["load"], "demand")] .nan,
   text "sink_unit" ["techs"] [] (.str "absolute"), text "source_unit" ["techs"] [] (.str "absolute"),
   carries "carrier_out" [["a", "gas", "e"], ["a", "line", "e"], ["b", "line", "e"], ["b", "bat", "e"],
     ["b", "boiler", "h"]],
   carries "carrier_in" [["a", "line", "e"], ["b", "line", "e"], ["b", "bat", "e"], ["b", "boiler", "e"],
     ["b", "load", "h"]],
   carries "carrier_export" [["a", "gas", "e"]]]

def items : List (List Label) :=
  [["a", "gas", "e"], ["a", "line", "e"], ["b", "line", "e"], ["b", "bat", "e"], ["b", "boiler", "e"],
   ["b", "boiler", "h"], ["b", "load", "h"]]

def dispatch (times : List Label) (gas exp sent got charge discharge level burnt heat zero : List Rat) :
    List ((String × List String × (List Label → Rat)) × (String × Arr Bool)) :=
  [result "flow_cap" ntc [(["a", "gas", "e"], 4), (["a", "line", "e"], 3), (["b", "line", "e"], 3), (["b", "bat", "e"], 2),
     (["b", "boiler", "e"], 4), (["b", "boiler", "h"], 4), (["b", "load", "h"], 4)],
   result "link_flow_cap" ["techs"] [(["line"], 3)], result "area_use" nt [], result "storage_cap" nt [(["b", "bat"], 4)],
   result "source_cap" nt [(["a", "gas"], 100)],
   result "unmet_demand" ["nodes", "carriers", "timesteps"] [],
   result "unused_supply" ["nodes", "carriers", "timesteps"] [],
   result "flow_out" ntct (series ["a", "gas", "e"] times gas ++ series ["a", "line", "e"] times zero ++
     series ["b", "line", "e"] times got ++ series ["b", "bat", "e"] times discharge ++
     series ["b", "boiler", "h"] times heat),
   result "flow_out_inc_eff" ntct (series ["a", "gas", "e"] times gas ++ series ["a", "line", "e"] times zero ++
     series ["b", "line", "e"] times sent ++ series ["b", "bat", "e"] times discharge ++
     series ["b", "boiler", "h"] times burnt),
   result "flow_in" ntct (series ["a", "line", "e"] times sent ++ series ["b", "line", "e"] times zero ++
     series ["b", "bat", "e"] times charge ++ series ["b", "boiler", "e"] times burnt ++
     series ["b", "load", "h"] times heat),
   result "flow_in_inc_eff" ntct (series ["a", "line", "e"] times sent ++ series ["b", "line", "e"] times zero ++
     series ["b", "bat", "e"] times charge ++ series ["b", "boiler", "e"] times burnt ++
     series ["b", "load", "h"] times heat),
   result "flow_export" ntct (series ["a", "gas", "e"] times exp),
   result "source_use" ntt (series ["a", "gas"] times gas), result "storage" ntt (series ["b", "bat"] times level)]

def grid (times : List Label) (tables : List Table)
    (results : List ((String × List String × (List Label → Rat)) × (String × Arr Bool))) : Mini where
  labels := [("nodes", ["a", "b"]), ("techs", ["gas", "line", "bat", "boiler", "load"]), ("carriers", ["e", "h"]),
    ("timesteps", times)]
  data := tables.map (fun p => (paramOf p).1) ++ results.map Prod.fst
  lookups := []
  inputs := tables.map (fun p => (paramOf p).2) ++ kinds
  results := results.map Prod.snd
  along := ntc
  items := items
  config := [("ensure_feasibility", .bool false)]

def fine : Mini := grid t4 fineTables
  (dispatch t4 [1, 2, 3, 4] [0, 0, 1, 1] [1, 2, 2, 3] [1 / 2, 1, 1, 3 / 2] [0, 1 / 2, 0, 0] [0, 0, 0, 1 / 2]
    [2, 5 / 2, 5 / 2, 2] [1 / 2, 1 / 2, 1, 2] [1 / 4, 1 / 4, 1 / 2, 1] [0, 0, 0, 0])

def coarse : Mini := grid t2 coarseTables
  (dispatch t2 [3, 7] [0, 2] [3, 5] [3 / 2, 5 / 2] [1 / 2, 0] [0, 1 / 2] [5 / 2, 2] [1, 3] [1 / 2, 3 / 2] [0, 0])

def rules : List (Component Rat) :=
  [exportBalance, storageMax, storageDischargeDepthLimit, balanceTransmission, balanceConversion, rampingUp, rampingDown,
    balanceStorage, systemBalance]

theorem fine_fit : fit fine = true := by decide +kernel
theorem coarse_fit : fit coarse = true := by decide +kernel
theorem fine_built : ∀ c ∈ rules, isOk (buildConstraint fine.W fine.E List.dedup c) = true := by decide +kernel
theorem coarse_built : ∀ c ∈ rules, isOk (buildConstraint coarse.W coarse.E List.dedup c) = true := by decide +kernel
theorem fine_holds : ∀ c ∈ rules, fine.holds c = true := by decide +kernel

theorem S : Setting fine.W fine.E power := Mini.setting (fit_ok fine_fit)
theorem S' : Setting coarse.W coarse.E power := Mini.setting (fit_ok coarse_fit)

theorem con {c : Component Rat} (hc : c ∈ rules) :
    buildConstraint fine.W fine.E List.dedup c = .ok (fine.con c) := con_ok (fine_built c hc)
theorem con' {c : Component Rat} (hc : c ∈ rules) :
    buildConstraint coarse.W coarse.E List.dedup c = .ok (coarse.con c) := con_ok (coarse_built c hc)

theorem relation : Coarser fine.W coarse.W steps :=
  coarser_ok (by decide +kernel) (by decide +kernel) (by
    intro d hd
    unfold Mini.coords fine coarse grid
    simp only [List.lookup_cons, List.lookup_nil, beq_false_of_ne hd]) rfl rfl rfl (by decide)

theorem throughout {c : Component Rat} (hc : c ∈ rules) {ρ : Point} (hρ : Valid coarse.W ρ) :
    Throughout (fine.con c) steps ρ := fun _ ht => con_holds (fine_holds c hc) (relation.valid hρ ht)

theorem sums (n : String) (h : adds fine coarse steps n ntct = true) :
    Added coarse.W steps (fine.quantity n) (coarse.quantity n) := adds_ok ntct h
theorem stays (n : String) (h : keeps fine coarse steps n ntct = true) :
    Kept coarse.W steps (fine.quantity n) (coarse.quantity n) := keeps_ok ntct h

theorem totals : Totals steps (plantOf fine_fit) (plantOf coarse_fit) where
  out := sums "flow_out" (by decide +kernel)
  inn := sums "flow_in" (by decide +kernel)
  exp := sums "flow_export" (by decide +kernel)
  source := sums "source_use" (by decide +kernel)
  cap := stays "flow_cap" (by decide +kernel)
  sourceCap := stays "source_cap" (by decide +kernel)

def dataOf (n : String) : Arr (Option Rat) := (((fineTables.map arrOf).lookup n).getD (⟨[], fun _ => none⟩, 0)).1

theorem even {names : List String} (h : evens fine coarse steps ntct names (fineTables.map arrOf) = true) {ρ : Point}
    (hρ : Valid coarse.W ρ) : Even fine.W coarse.W fine.E coarse.E steps names ρ := evens_ok ntct _ h hρ

theorem hours {ρ : Point} (hρ : Valid coarse.W ρ) :
    Filled fine.W coarse.W fine.E coarse.E steps "timestep_resolution" ρ := by
  refine ⟨dataOf "timestep_resolution", resampled_ok (d := 1) ntct (by decide +kernel) (by decide +kernel),
    by decide +kernel, ?_⟩
  intro t ht
  have hm : ∀ T ∈ ["T0", "T1"], ∀ t ∈ steps T, (dataOf "timestep_resolution").val [t] ≠ none := by decide +kernel
  have := hm _ (hρ "timesteps") t ht
  show (dataOf "timestep_resolution").val [Expr.set ρ "timesteps" t "timesteps"] ≠ none
  rw [BaseMath.set_at]
  exact this

/-- A technology at a node in the second interval. -/
def spot (n t : Label) : Point := coarse.point [("nodes", n), ("techs", t), ("timesteps", "T1")]
theorem spot_valid {n t : Label} (hn : n ∈ ["a", "b"]) (ht : t ∈ ["gas", "line", "bat", "boiler", "load"]) :
    Valid coarse.W (spot n t) :=
  valid_point (fit_ok coarse_fit) (by
    simp only [List.all_cons, List.all_nil, Bool.and_true, Bool.and_eq_true, decide_eq_true_eq]
    exact ⟨hn, ht, by decide⟩)

theorem kind : Alike fine.W coarse.W "base_tech" := ⟨rfl, by decide +kernel⟩

theorem outflows : Defines fine.W fine.E List.dedup flowOutIncEff (fine.quantity "flow_out_inc_eff") :=
  definesOf (c := flowOutIncEff) (by decide +kernel)
theorem outflows' : Defines coarse.W coarse.E List.dedup flowOutIncEff (coarse.quantity "flow_out_inc_eff") :=
  definesOf (c := flowOutIncEff) (by decide +kernel)
theorem inflows : Defines fine.W fine.E List.dedup flowInIncEff (fine.quantity "flow_in_inc_eff") :=
  definesOf (c := flowInIncEff) (by decide +kernel)
theorem inflows' : Defines coarse.W coarse.E List.dedup flowInIncEff (coarse.quantity "flow_in_inc_eff") :=
  definesOf (c := flowInIncEff) (by decide +kernel)

/-- What a constraint compares. -/
def cellAt (b : Arr (Option (Cell Rat))) (ρ : Point) : Option (Option Rat × String × Option Rat) :=
  (b.at ρ).map (fun c => (c.lhs, c.op, c.rhs))

/-- C114_taking -/
theorem taking : Added coarse.W steps (fine.quantity "flow_in_inc_eff") (coarse.quantity "flow_in_inc_eff") :=
  C114_taking S S' traverses relation totals kind (fit_kind fine_fit) inflows inflows' (effsOf fine_fit)
    (effsOf coarse_fit) (fun _ hσ => even (by decide +kernel) hσ)

theorem some_left : ∀ σ, Valid coarse.W σ → (effsOf coarse_fit).giving coarse.W power σ ≠ 0 := by
  refine at_all (ds := ["techs"]) (by simp) ?_ (by decide +kernel)
  intro ρ σ hs hP
  have h : (effsOf coarse_fit).giving coarse.W power ρ = (effsOf coarse_fit).giving coarse.W power σ := by
    unfold Efficiencies.giving
    have hd : ∀ d ∈ (coarse.W.input "base_tech").arr.dims, d ∈ ["techs"] := by decide +kernel
    simp only [text_same hs hd]
    have q : ∀ n, spans coarse n ["techs"] = true → coarse.quantity n ρ = coarse.quantity n σ :=
      fun n hn => spans_same hn hs
    show (if _ then _ else _) = (if _ then _ else _)
    rw [show (effsOf coarse_fit).out ρ = (effsOf coarse_fit).out σ from q "flow_out_eff" (by decide +kernel),
      show (effsOf coarse_fit).parasitic ρ = (effsOf coarse_fit).parasitic σ from q "flow_out_parasitic_eff" (by decide +kernel),
      show (effsOf coarse_fit).outPerDistance ρ = (effsOf coarse_fit).outPerDistance σ from q "flow_out_eff_per_distance" (by decide +kernel),
      show (effsOf coarse_fit).distance ρ = (effsOf coarse_fit).distance σ from q "distance" (by decide +kernel)]
  rw [h]
  exact hP

/-- C114_giving -/
theorem giving : Added coarse.W steps (fine.quantity "flow_out_inc_eff") (coarse.quantity "flow_out_inc_eff") :=
  C114_giving S S' traverses relation totals kind (fit_kind fine_fit) outflows outflows' (effsOf fine_fit)
    (effsOf coarse_fit) some_left (fun _ hσ => even (by decide +kernel) hσ)

/-- C114_export -/
example : Satisfied (coarse.con exportBalance) (spot "a" "gas") ∧
    cellAt (coarse.con exportBalance) (spot "a" "gas") = some (some 7, ">=", some 2) :=
  ⟨C114_export S S' traverses relation totals ⟨rfl, by decide +kernel⟩ (con (by simp [rules])) (con' (by simp [rules]))
    (spot_valid (by decide) (by decide)) (throughout (by simp [rules]) (spot_valid (by decide) (by decide))),
    by decide +kernel⟩

/-- C114_storage_max, C114_depth -/
example : Satisfied (coarse.con storageMax) (spot "b" "bat") ∧
    Satisfied (coarse.con storageDischargeDepthLimit) (spot "b" "bat") ∧
    cellAt (coarse.con storageDischargeDepthLimit) (spot "b" "bat") = some (some 1, ">=", some 0) := by
  have hv : Valid coarse.W (spot "b" "bat") := spot_valid (by decide) (by decide)
  exact ⟨C114_storage_max S S' traverses relation (P := plantOf fine_fit) (P' := plantOf coarse_fit)
      (ends_ok (F := fine) (n := "storage") ntct (by decide +kernel)) (stays "storage_cap" (by decide +kernel))
      ⟨rfl, by decide +kernel⟩ kind (con (by simp [rules])) (con' (by simp [rules])) hv
      (throughout (by simp [rules]) hv),
    C114_depth S S' traverses relation (P := plantOf fine_fit) (P' := plantOf coarse_fit)
      (ends_ok (F := fine) (n := "storage") ntct (by decide +kernel)) (stays "storage_cap" (by decide +kernel))
      ⟨rfl, by decide +kernel⟩ kind (has_ok (n := "storage_discharge_depth") (by decide +kernel))
      (has_ok (n := "storage_discharge_depth") (by decide +kernel)) (within_ok (by decide +kernel))
      (within_ok (by decide +kernel)) (con (by simp [rules])) (con' (by simp [rules])) hv (even (by decide +kernel) hv)
      (throughout (by simp [rules]) hv), by decide +kernel⟩

/-- C114_transmission -/
example : Satisfied (coarse.con balanceTransmission) (spot "a" "line") ∧
    cellAt (coarse.con balanceTransmission) (spot "a" "line") = some (some 5, "==", some 5) :=
  ⟨C114_transmission S S' traverses relation kind (within_ok (by decide +kernel))
    (has_ok (n := "flow_out_inc_eff") (by decide +kernel)) (has_ok (n := "flow_out_inc_eff") (by decide +kernel))
    (has_ok (n := "flow_in_inc_eff") (by decide +kernel)) (has_ok (n := "flow_in_inc_eff") (by decide +kernel))
    giving taking (con (by simp [rules])) (con' (by simp [rules])) (spot_valid (by decide) (by decide))
    (throughout (by simp [rules]) (spot_valid (by decide) (by decide))), by decide +kernel⟩

/-- C114_conversion -/
example : Satisfied (coarse.con balanceConversion) (spot "b" "boiler") ∧
    cellAt (coarse.con balanceConversion) (spot "b" "boiler") = some (some 3, "==", some 3) :=
  ⟨C114_conversion S S' traverses relation kind ⟨rfl, by decide +kernel⟩ (within_ok (by decide +kernel))
    (has_ok (n := "flow_out_inc_eff") (by decide +kernel)) (has_ok (n := "flow_out_inc_eff") (by decide +kernel))
    (has_ok (n := "flow_in_inc_eff") (by decide +kernel)) (has_ok (n := "flow_in_inc_eff") (by decide +kernel))
    giving taking (con (by simp [rules])) (con' (by simp [rules])) (spot_valid (by decide) (by decide))
    (throughout (by simp [rules]) (spot_valid (by decide) (by decide))), by decide +kernel⟩

/-- A model in which flows may not change fast. -/
def rampsOf {M : Mini} (h : fit M = true) (h1 : M.has "flow_ramping" [] = true)
    (h2 : M.within ["nodes", "techs", "carriers"] ["flow_ramping", "carrier_in", "carrier_out"] = true)
    (h3 : ∀ ρ, Valid M.W ρ → M.quantity "timestep_resolution" ρ ≠ 0) : Ramps M.W M.E where
  ramping := M.quantity "flow_ramping"
  isRamping := has_ok h1
  hours := by
    intro a ha ρ hρ h0
    obtain ⟨c, hc, hv, _⟩ := fit_has h "timestep_resolution" (by simp)
    rw [hc] at ha
    cases ha
    rw [hv ρ, Option.some.injEq] at h0
    exact h3 ρ hρ h0
  minus _ := rfl
  within := within_ok h2

theorem long {M : Mini} (h : spans M "timestep_resolution" ["timesteps"] = true)
    (h' : ∀ c ∈ M.rows ["timesteps"], M.quantity "timestep_resolution" (M.point (["timesteps"].zip c)) ≠ 0) :
    ∀ ρ, Valid M.W ρ → M.quantity "timestep_resolution" ρ ≠ 0 :=
  at_all (ds := ["timesteps"]) (by simp) (fun ρ σ hs hP => by rw [spans_same h hs]; exact hP) h'

def ramps : Ramps fine.W fine.E :=
  rampsOf fine_fit (by decide +kernel) (by decide +kernel) (long (by decide +kernel) (by decide +kernel))
def ramps' : Ramps coarse.W coarse.E :=
  rampsOf coarse_fit (by decide +kernel) (by decide +kernel) (long (by decide +kernel) (by decide +kernel))

/-- C114_ramping: an outflow of 1, 2, 3, 4 that rises within its rate in every hour rises by two in the two intervals,
faster than its rate allows. -/
example : Throughout (fine.con rampingUp) steps (spot "a" "gas") ∧
    Throughout (fine.con rampingDown) steps (spot "a" "gas") ∧
    ¬ (Satisfied (coarse.con rampingUp) (spot "a" "gas") ∧ Satisfied (coarse.con rampingDown) (spot "a" "gas")) := by
  have hv : Valid coarse.W (spot "a" "gas") := spot_valid (by decide) (by decide)
  refine ⟨throughout (by simp [rules]) hv, throughout (by simp [rules]) hv, ?_⟩
  rw [C114_ramping S S' traverses relation totals ramps ramps' (con' (by simp [rules])) (con' (by simp [rules])) hv
    (in_model hv ["a", "gas", "e"] (by decide +kernel) (by decide)) (by decide +kernel) (by decide +kernel)
    (.inr (by decide +kernel)) (fun _ hσ => hours hσ) (even (by decide +kernel) hv) (t := "t2") (by decide +kernel)]
  decide +kernel

end CoarseMoreDemo
end Coarse
end Calliope
