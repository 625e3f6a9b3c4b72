import Verif.Props.CoarseDemo

/-!
# What is not the same at a coarser time resolution

`odd`: a fixed demand `load` that is not dated, a flexible demand `heat` with a limit in the first of two time steps only,
and a battery `bat` with losses.  `uneven`: a demand with an efficiency that changes.  Their two time steps become one
interval.
-/

namespace Calliope
namespace Coarse

open Grid Infix Expr Expand Build Where BaseMath Time Mini LimitDemo CoarseDemo

namespace CoarseOdd

def f2 : List Label := ["t0", "t1"]
def k1 : List Label := ["T0"]

def steps (T : Label) : List Label := if T = "T0" then ["t0", "t1"] else []

/-! ## Constant demand, limits at some time steps, losses -/

def oddPlain : List Table := plain ++
  [("flow_in_eff", ["techs"], [], 1), ("storage_loss", ["techs"], [(["bat"], 1 / 2)], 0),
   ("sink_use_equals", ["techs"], [(["load"], 3)], 0), ("sink_use_min", ["techs"], [], 0),
   ("source_use_max", ["techs"], [], 1000), ("source_use_min", ["techs"], [], 0)]

def oddTables : List Table := oddPlain ++
  [("sink_use_max", tt, [(["heat", "t0"], 1 / 4)], 1000), ("timestep_resolution", ["timesteps"], series [] f2 [1, 1], 1)]

def oddTables' : List Table := oddPlain ++
  [("sink_use_max", tt, [(["heat", "T0"], 1 / 4)], 1000), ("timestep_resolution", ["timesteps"], series [] k1 [2], 1)]

def odd : Mini := mini techs f2 oddTables
  (CoarseDemo.built ++ dispatch f2 [2, 2] [4, 4] [2, 4] [0, 0] [0, 1] [3, 3] [1, 2] [2, 2] [] []) kinds items

def odd' : Mini := mini techs k1 oddTables'
  (CoarseDemo.built ++ dispatch k1 [4] [8] [6] [0] [1] [6] [3] [2] [] []) kinds items

theorem odd_fit : fit odd = true := by decide +kernel
theorem odd_fit' : fit odd' = true := by decide +kernel

/-- The constraints that the examples are about, and the balance of the carrier. -/
def rules : List (Component Rat) := [balanceDemand, balanceStorage, systemBalance]

theorem odd_built : ∀ c ∈ rules, isOk (buildConstraint odd.W odd.E List.dedup c) = true := by decide +kernel
theorem odd_built' : ∀ c ∈ rules, isOk (buildConstraint odd'.W odd'.E List.dedup c) = true := by decide +kernel
theorem odd_holds : ∀ c ∈ rules, odd.holds c = true := by decide +kernel

theorem S : Setting odd.W odd.E power := Mini.setting (fit_ok odd_fit)
theorem S' : Setting odd'.W odd'.E power := Mini.setting (fit_ok odd_fit')

theorem con {c : Component Rat} (hc : c ∈ rules) :
    buildConstraint odd.W odd.E List.dedup c = .ok (odd.con c) := con_ok (odd_built c hc)
theorem con' {c : Component Rat} (hc : c ∈ rules) :
    buildConstraint odd'.W odd'.E List.dedup c = .ok (odd'.con c) := con_ok (odd_built' c hc)

theorem relation : Coarser odd.W odd'.W steps :=
  coarser_ok (by decide +kernel) (by decide +kernel) (by
    intro d hd
    unfold Mini.coords odd odd' mini
    simp only [List.lookup_cons, List.lookup_nil, beq_false_of_ne hd]) rfl rfl rfl (by decide)

theorem throughout {c : Component Rat} (hc : c ∈ rules) {ρ : Point} (hρ : Valid odd'.W ρ) :
    Throughout (odd.con c) steps ρ := fun _ ht => con_holds (odd_holds c hc) (relation.valid hρ ht)

theorem sums (n : String) (h : adds odd odd' steps n ntct = true) :
    Added odd'.W steps (odd.quantity n) (odd'.quantity n) := adds_ok ntct h
theorem stays (n : String) (h : keeps odd odd' steps n ntct = true) :
    Kept odd'.W steps (odd.quantity n) (odd'.quantity n) := keeps_ok ntct h

theorem totals : Totals steps (plantOf odd_fit) (plantOf odd_fit') where
  out := sums "flow_out" (by decide +kernel)
  inn := sums "flow_in" (by decide +kernel)
  exp := sums "flow_export" (by decide +kernel)
  source := sums "source_use" (by decide +kernel)
  cap := stays "flow_cap" (by decide +kernel)
  sourceCap := stays "source_cap" (by decide +kernel)

def dataOf (n : String) : Arr (Option Rat) := (((oddTables.map arrOf).lookup n).getD (⟨[], fun _ => none⟩, 0)).1

theorem resampledIn {n : String} {d : Rat} (h : holdsData odd n (dataOf n) d ntct = true)
    (h' : holdsData odd' n (resampled steps (methodOf n) (dataOf n)) d ntct = true) :
    Resampled odd.W odd'.W odd.E odd'.E steps n (dataOf n) := resampled_ok ntct h h'

theorem even {names : List String} (h : evens odd odd' steps ntct names (oddTables.map arrOf) = true) {ρ : Point}
    (hρ : Valid odd'.W ρ) : Even odd.W odd'.W odd.E odd'.E steps names ρ := evens_ok ntct _ h hρ

def spot (t : Label) : Point := odd'.point [("techs", t)]
theorem spot_valid {t : Label} (ht : t ∈ techs) : Valid odd'.W (spot t) :=
  valid_point (fit_ok odd_fit') (by
    simp only [List.all_cons, List.all_nil, Bool.and_true, decide_eq_true_eq]
    exact ht)

theorem inflows : Defines odd.W odd.E List.dedup flowInIncEff (odd.quantity "flow_in_inc_eff") :=
  definesOf (c := flowInIncEff) (by decide +kernel)
theorem inflows' : Defines odd'.W odd'.E List.dedup flowInIncEff (odd'.quantity "flow_in_inc_eff") :=
  definesOf (c := flowInIncEff) (by decide +kernel)

/-- C114_undated: the demand of three units in each of two time steps is three in the interval. -/
example : ¬ Satisfied (odd'.con balanceDemand) (spot "load") := by
  have hv := spot_valid (t := "load") (by decide)
  exact C114_undated S S' traverses relation totals (N := needsOf odd_fit) (N' := needsOf odd_fit')
    (stays "area_use" (by decide +kernel)) (effsOf odd_fit) (effsOf odd_fit') inflows inflows'
    (con (by simp [rules])) (con' (by simp [rules])) hv
    (in_model hv ["a", "load", "e"] (by decide +kernel) (by decide)) (by decide +kernel)
    (.inr (.inr (by decide +kernel))) ⟨rfl, by decide +kernel⟩ ⟨rfl, by decide +kernel⟩ (even (by decide +kernel) hv)
    ⟨dataOf "sink_use_equals", resampledIn (d := 0) (by decide +kernel) (by decide +kernel), by decide +kernel,
      by decide +kernel⟩ (by decide) (by decide +kernel) (throughout (by simp [rules]) hv)

/-- C114_partly: one unit at most in the first time step, any in the second, is one unit at most in the interval. -/
example : ¬ Satisfied (odd'.con balanceDemand) (spot "heat") := by
  have hv := spot_valid (t := "heat") (by decide)
  exact C114_partly S S' traverses relation totals (N := needsOf odd_fit) (N' := needsOf odd_fit')
    (stays "area_use" (by decide +kernel)) (effsOf odd_fit) (effsOf odd_fit') inflows inflows'
    (con (by simp [rules])) (con' (by simp [rules])) hv
    (in_model hv ["a", "heat", "e"] (by decide +kernel) (by decide)) (by decide +kernel)
    (.inr (.inl (by decide +kernel))) ⟨rfl, by decide +kernel⟩ ⟨rfl, by decide +kernel⟩ (even (by decide +kernel) hv)
    ⟨dataOf "sink_use_equals", resampledIn (d := 0) (by decide +kernel) (by decide +kernel), by decide +kernel⟩
    (resampledIn (n := "sink_use_max") (d := 1000) (by decide +kernel) (by decide +kernel)) (by decide +kernel)
    (u := "t0") (v := "t1") (by decide) (by decide) (by decide +kernel) (by decide +kernel) (by decide +kernel)
    (by decide +kernel) (by decide +kernel)

/-- C114_loss: of two units, one is lost until the second time step, none in the interval. -/
example : ¬ Satisfied (odd'.con balanceStorage) (spot "bat") := by
  have hv := spot_valid (t := "bat") (by decide)
  rw [C114_loss S S' traverses relation (D := storeOf odd_fit) (D' := storeOf odd_fit') (fit_storage odd_fit)
    (fit_storage odd_fit') (ends_ok (F := odd) (n := "storage") ntct (by decide +kernel))
    (sums "flow_out_inc_eff" (by decide +kernel)) (sums "flow_in_inc_eff" (by decide +kernel))
    ⟨rfl, by decide +kernel⟩ ⟨rfl, by decide +kernel⟩ (fun _ _ => rfl) (no_clusters rfl)
    (con (by simp [rules])) (con' (by simp [rules])) hv (in_model hv ["a", "bat", "e"] (by decide +kernel) (by decide))
    (by decide +kernel) (x := "t0") (y := "t1") (B := ["t1"]) (by decide +kernel) rfl (v := 2) (v' := 2)
    (.inl ⟨by decide +kernel, by decide +kernel, by decide +kernel⟩)
    (.inl ⟨by decide +kernel, by decide +kernel, by decide +kernel⟩) (throughout (by simp [rules]) hv)]
  decide +kernel

/-! ## An efficiency that changes -/

def unevenPlain : List Table := plain ++
  [("storage_loss", ["techs"], [], 0), ("sink_use_min", ["techs"], [], 0), ("sink_use_max", ["techs"], [], 1000),
   ("source_use_max", ["techs"], [], 1000), ("source_use_min", ["techs"], [], 0)]

def unevenTables : List Table := unevenPlain ++
  [("flow_in_eff", ["timesteps"], series [] f2 [1, 1 / 2], 1), ("sink_use_equals", tt, series ["load"] f2 [2, 2], 0),
   ("timestep_resolution", ["timesteps"], series [] f2 [1, 1], 1)]

def unevenTables' : List Table := unevenPlain ++
  [("flow_in_eff", ["timesteps"], series [] k1 [3 / 4], 1), ("sink_use_equals", tt, series ["load"] k1 [4], 0),
   ("timestep_resolution", ["timesteps"], series [] k1 [2], 1)]

def only (times : List Label) (inn inc : List Rat) :
    List ((String × List String × (List Label → Rat)) × (String × Arr Bool)) :=
  [result "flow_cap" ntc [(["a", "load", "e"], 4)], result "link_flow_cap" ["techs"] [], result "area_use" nt [],
   result "storage_cap" nt [], result "source_cap" nt [], result "flow_export" ntct [],
   result "unmet_demand" ["nodes", "carriers", "timesteps"] [],
   result "unused_supply" ["nodes", "carriers", "timesteps"] [],
   result "flow_out" ntct [], result "flow_out_inc_eff" ntct [], result "source_use" ntt [], result "storage" ntt [],
   result "flow_in" ntct (series ["a", "load", "e"] times inn),
   result "flow_in_inc_eff" ntct (series ["a", "load", "e"] times inc)]

def uneven : Mini := mini ["load"] f2 unevenTables (only f2 [2, 4] [2, 2]) kinds [["a", "load", "e"]]
def uneven' : Mini := mini ["load"] k1 unevenTables' (only k1 [6] [9 / 2]) kinds [["a", "load", "e"]]

theorem uneven_fit : fit uneven = true := by decide +kernel
theorem uneven_fit' : fit uneven' = true := by decide +kernel

theorem uneven_relation : Coarser uneven.W uneven'.W steps :=
  coarser_ok (by decide +kernel) (by decide +kernel) (by
    intro d hd
    unfold Mini.coords uneven uneven' mini
    simp only [List.lookup_cons, List.lookup_nil, beq_false_of_ne hd]) rfl rfl rfl (by decide)

theorem uneven_sums (n : String) (h : adds uneven uneven' steps n ntct = true) :
    Added uneven'.W steps (uneven.quantity n) (uneven'.quantity n) := adds_ok ntct h
theorem uneven_stays (n : String) (h : keeps uneven uneven' steps n ntct = true) :
    Kept uneven'.W steps (uneven.quantity n) (uneven'.quantity n) := keeps_ok ntct h

theorem uneven_totals : Totals steps (plantOf uneven_fit) (plantOf uneven_fit') where
  out := uneven_sums "flow_out" (by decide +kernel)
  inn := uneven_sums "flow_in" (by decide +kernel)
  exp := uneven_sums "flow_export" (by decide +kernel)
  source := uneven_sums "source_use" (by decide +kernel)
  cap := uneven_stays "flow_cap" (by decide +kernel)
  sourceCap := uneven_stays "source_cap" (by decide +kernel)

def unevenData (n : String) : Arr (Option Rat) :=
  (((unevenTables.map arrOf).lookup n).getD (⟨[], fun _ => none⟩, 0)).1

/-- C114_efficiency: six units of inflow, which meet a demand of four, are four and a half at the mean efficiency. -/
example : ¬ Satisfied (uneven'.con balanceDemand) (uneven'.point []) := by
  have hv : Valid uneven'.W (uneven'.point []) := valid_point (fit_ok uneven_fit') rfl
  rw [C114_efficiency (Mini.setting (fit_ok uneven_fit)) (Mini.setting (fit_ok uneven_fit')) traverses uneven_relation
    uneven_totals (N := needsOf uneven_fit) (N' := needsOf uneven_fit') (uneven_stays "area_use" (by decide +kernel))
    (effsOf uneven_fit) (effsOf uneven_fit') (definesOf (c := flowInIncEff) (by decide +kernel))
    (definesOf (c := flowInIncEff) (by decide +kernel)) (con_ok (c := balanceDemand) (by decide +kernel))
    (con_ok (c := balanceDemand) (by decide +kernel)) hv
    (in_model hv ["a", "load", "e"] (by decide +kernel) (by decide)) (by decide +kernel)
    (.inr (.inr (by decide +kernel))) ⟨rfl, by decide +kernel⟩ ⟨rfl, by decide +kernel⟩
    ⟨unevenData "sink_use_equals", resampled_ok (d := 0) ntct (by decide +kernel) (by decide +kernel),
      by decide +kernel, by decide +kernel⟩
    (fun _ ht => con_holds (by decide +kernel) (uneven_relation.valid hv ht))]
  decide +kernel

/-- The efficiency of the interval is what resampling makes of those of its time steps. -/
example : Resampled uneven.W uneven'.W uneven.E uneven'.E steps "flow_in_eff" (unevenData "flow_in_eff") :=
  resampled_ok (d := 1) ntct (by decide +kernel) (by decide +kernel)

end CoarseOdd
end Coarse
end Calliope
