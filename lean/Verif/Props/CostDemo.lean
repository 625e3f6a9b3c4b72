import Verif.Props.DemoTools
import Verif.Props.Costs

/-!
# A small model with costs

A supply technology `pv` at the node `a`, a link `line` from `a` to `b`, and a battery `bat` at `b`.
-/

namespace Calliope
namespace BaseMath

open Grid Infix Expr Expand Build Where

namespace Mini
variable {M : Mini}

theorem point_at {ds : List String} (hn : ds.Nodup) {ρ : Point} {d : String} (hd : d ∈ ds) :
    M.point (ds.zip (ds.map ρ)) d = ρ d := by
  unfold point
  have : (ds.zip (ds.map ρ)).lookup d = some (ρ d) := by
    induction ds with
    | nil => simp at hd
    | cons x ds ih =>
      rw [List.nodup_cons] at hn
      simp only [List.map_cons, List.zip_cons_cons, List.lookup_cons]
      by_cases h : d = x
      · subst h; simp
      · rw [beq_false_of_ne h]
        exact ih hn.2 ((List.mem_cons.1 hd).resolve_left h)
  rw [this]
  rfl

/-- A property of points that depends on the dimensions `ds` only, checked at all of their labels. -/
theorem forall_points {ds : List String} (hn : ds.Nodup) {P : Point → Prop}
    (hP : ∀ ρ σ, Valid M.W ρ → SameAlong ds ρ σ → P σ → P ρ)
    (h : ∀ c ∈ M.rows ds, P (M.point (ds.zip c))) {ρ : Point} (hρ : Valid M.W ρ) : P ρ := by
  refine hP ρ (M.point (ds.zip (ds.map ρ))) hρ ?_ (h _ (mem_rows hρ ds))
  intro d hd
  exact point_at hn hd

/-- An expression as it was built, under its name. -/
def knows (M : Mini) (ds : List String) (c : Component Rat) : Bool :=
  match M.data.lookup c.defn.name, M.results.lookup c.defn.name with
  | some (ds', g), some a =>
    isOk (buildExpression M.W M.E List.dedup c) && decide ds.Nodup && decide (ds' = ds) && decide (c.foreach = ds) &&
    a.dims.all (fun d => decide (d ∈ ds)) && (M.expr c).dims.all (fun d => decide (d ∈ ds)) &&
    (M.rows ds).all (fun r => decide (g (ds.map (M.point (ds.zip r))) = ((M.expr c).at (M.point (ds.zip r))).getD 0) &&
      decide (a.at (M.point (ds.zip r)) = ((M.expr c).at (M.point (ds.zip r))).isSome))
  | _, _ => false

theorem knows_ok {ds : List String} {c : Component Rat} (h : M.knows ds c = true) {f : Point → Rat}
    (hf : ∀ g, M.data.lookup c.defn.name = some (ds, g) → f = fun ρ => g (ds.map ρ)) :
    Defines M.W M.E List.dedup c f := by
  unfold knows at h
  split at h
  · rename_i ds' g a hd hr
    simp only [Bool.and_eq_true, decide_eq_true_eq, List.all_eq_true] at h
    obtain ⟨⟨⟨⟨⟨⟨h1, h2⟩, h3⟩, h3'⟩, h4⟩, h5⟩, h6⟩ := h
    subst h3
    have hfe := hf g hd
    subst hfe
    refine ⟨M.expr c, expr_ok h1, ?_⟩
    rw [h3']
    refine ⟨is_data hd (fun _ h => h), ?_, ?_, ?_⟩
    · intro ρ hρ
      refine forall_points (P := fun ρ => g (ds'.map ρ) = ((M.expr c).at ρ).getD 0) h2 ?_ (fun r hr => (h6 r hr).1) hρ
      intro ρ σ _ hs hP
      rw [← at_congr (M.expr c) (fun d hd => hs d (h5 d hd)), ← hP]
      congr 1
      exact List.map_congr_left (fun d hd => (hs d hd).symm)
    · intro ρ hρ
      have key : a.at ρ = ((M.expr c).at ρ).isSome := by
        refine forall_points (P := fun ρ => a.at ρ = ((M.expr c).at ρ).isSome) h2 ?_ (fun r hr => (h6 r hr).2) hρ
        intro ρ σ _ hs hP
        rw [← at_congr (M.expr c) (fun d hd => hs d (h5 d hd)), ← hP]
        exact (at_congr a (fun d hd => hs d (h4 d hd))).symm
      constructor
      · rintro ⟨a', ha', hv⟩
        rw [show M.W.result c.defn.name = M.results.lookup c.defn.name from rfl, hr, Option.some.injEq] at ha'
        subst ha'
        rw [key] at hv
        intro hnone
        rw [hnone] at hv
        simp at hv
      · intro hne
        refine ⟨a, hr, ?_⟩
        rw [key]
        exact Option.isSome_iff_ne_none.2 hne
    · intro a' ha'
      rw [show M.W.result c.defn.name = M.results.lookup c.defn.name from rfl, hr, Option.some.injEq] at ha'
      subst ha'
      exact h4
  · simp at h

/-- A decision variable, zero where it does not exist. -/
def decides (M : Mini) (ds : List String) (n : String) : Bool :=
  match M.data.lookup n, M.results.lookup n with
  | some (ds', g), some a =>
    decide ds.Nodup && decide (ds' = ds) && a.dims.all (fun d => decide (d ∈ ds)) &&
    ds.all (fun d => decide (d ∈ M.labels.map Prod.fst)) &&
    (M.rows ds).all (fun r => decide (g (ds.map (M.point (ds.zip r))) = 0) ||
      (a.at (M.point (ds.zip r)) && M.items.any (fun c => M.agrees ds (M.point (ds.zip r)) c)))
  | _, _ => false

theorem agrees_same {ds : List String} {ρ σ : Point} (hs : SameAlong ds ρ σ) (c : List Label) :
    M.agrees ds ρ c = M.agrees ds σ c := by
  unfold agrees
  congr 1
  rw [Bool.eq_iff_iff]
  simp only [List.all_eq_true, Bool.and_eq_true, Bool.or_eq_true, decide_eq_true_eq]
  refine forall_congr' fun p => forall_congr' fun _ => and_congr Iff.rfl ?_
  by_cases h : p.1 ∈ ds
  · rw [hs _ h]
  · simp [h]

theorem decides_ok {ds : List String} {n : String} (h : M.decides ds n = true) {f : Point → Rat}
    (hf : ∀ g, M.data.lookup n = some (ds, g) → f = fun ρ => g (ds.map ρ)) : Decision M.W M.E n ds f := by
  unfold decides at h
  split at h
  · rename_i ds' g a hd hr
    simp only [Bool.and_eq_true, decide_eq_true_eq, List.all_eq_true, Bool.or_eq_true] at h
    obtain ⟨⟨⟨⟨h2, h3⟩, h4⟩, h5⟩, h6⟩ := h
    subst h3
    have hfe := hf g hd
    subst hfe
    refine ⟨is_data hd (fun _ h => h), ?_, ?_⟩
    · intro ρ hρ h0
      have hs : SameAlong ds' ρ (M.point (ds'.zip (ds'.map ρ))) := fun d hd => point_at h2 hd
      have hm : ds'.map (M.point (ds'.zip (ds'.map ρ))) = ds'.map ρ := List.map_congr_left (fun d hd => hs d hd)
      rcases h6 _ (mem_rows hρ ds') with h | ⟨g1, g2⟩
      · rw [hm] at h
        exact absurd h h0
      · obtain ⟨i, hi, hag⟩ := List.any_eq_true.1 g2
        rw [← agrees_same hs] at hag
        refine ⟨in_model hρ i hag ?_, a, hr, ?_⟩
        · rw [List.all_eq_true]
          exact fun d hd => decide_eq_true (h5 d hd)
        · rw [← g1]
          exact (at_congr a (fun d hd => hs d (h4 d hd))).symm
    · intro a' ha'
      rw [show M.W.result n = M.results.lookup n from rfl, hr, Option.some.injEq] at ha'
      subst ha'
      exact h4
  · simp at h

/-- A price, zero where it is not given. -/
def prices (M : Mini) (ds : List String) (n : String) : Bool :=
  match M.data.lookup n with
  | some (ds', g) =>
    decide ds.Nodup && ds'.all (fun d => decide (d ∈ ds)) && (M.W.input n).arr.dims.all (fun d => decide (d ∈ ds)) &&
    (M.rows ds).all (fun r => decide (g (ds'.map (M.point (ds.zip r))) = 0) ||
      decide (GivenAt M.W n (M.point (ds.zip r))))
  | none => false

theorem prices_ok {ds : List String} {n : String} (h : M.prices ds n = true) {f : Point → Rat}
    (hf : ∀ ds' g, M.data.lookup n = some (ds', g) → f = fun ρ => g (ds'.map ρ)) : Price M.W M.E n f := by
  unfold prices at h
  split at h
  · rename_i ds' g hd
    simp only [Bool.and_eq_true, decide_eq_true_eq, List.all_eq_true, Bool.or_eq_true] at h
    obtain ⟨⟨⟨h2, h3⟩, h4⟩, h6⟩ := h
    have hfe := hf ds' g hd
    subst hfe
    refine ⟨is_data hd (by simp), ?_⟩
    intro ρ hρ hg
    have hs : SameAlong ds ρ (M.point (ds.zip (ds.map ρ))) := fun d hd => point_at h2 hd
    have hm : ds'.map (M.point (ds.zip (ds.map ρ))) = ds'.map ρ := List.map_congr_left (fun d hd => hs d (h3 d hd))
    rcases h6 _ (mem_rows hρ ds) with h | h
    · rw [hm] at h
      exact h
    · exact absurd ((givenAt_same h4 hs).1 h) hg
  · simp at h

end Mini

namespace CostDemo

open Mini

def amount (l : List (List Label × Rat)) : Arr Where.Val :=
  ⟨["techs"], fun c => ((l.lookup c).map Where.Val.num).getD .nan⟩

/-- A price per technology. -/
def price (n : String) (l : List (List Label × Rat)) : (String × List String × (List Label → Rat)) × (String × Input) :=
  ((n, ["techs"], table l), (n, ⟨.number, amount l, .num 0⟩))

def pricesOf : List ((String × List String × (List Label → Rat)) × (String × Input)) :=
  [price "cost_flow_cap" [(["pv"], 10), (["line"], 4)], price "cost_flow_cap_per_distance" [(["line"], 2)],
   price "cost_storage_cap" [(["bat"], 3)], price "cost_source_cap" [(["pv"], 5)], price "cost_area_use" [(["pv"], 1)],
   price "cost_om_annual" [(["line"], 6)], price "cost_om_annual_investment_fraction" [(["pv"], 1 / 10)],
   price "cost_export" [(["pv"], -1)], price "cost_flow_out" [(["bat"], 2)], price "cost_flow_in" [(["bat"], 1)],
   price "cost_source_use" [(["pv"], 3)], price "cost_depreciation_rate" [(["pv"], 1 / 20)],
   price "cost_interest_rate" []]

/-- A decision variable or expression, which exists where a number is given. -/
def result (n : String) (ds : List String) (l : List (List Label × Rat)) :
    (String × List String × (List Label → Rat)) × (String × Arr Bool) :=
  ((n, ds, table l), (n, ⟨ds, fun c => (l.lookup c).isSome⟩))

def resultsOf : List ((String × List String × (List Label → Rat)) × (String × Arr Bool)) :=
  [result "flow_cap" ["nodes", "techs", "carriers"]
     [(["a", "pv", "e"], 4), (["a", "line", "e"], 3), (["b", "line", "e"], 3), (["b", "bat", "e"], 2)],
   result "storage_cap" ["nodes", "techs"] [(["b", "bat"], 5)],
   result "source_cap" ["nodes", "techs"] [(["a", "pv"], 6)],
   result "area_use" ["nodes", "techs"] [(["a", "pv"], 7)],
   result "flow_out" ["nodes", "techs", "carriers", "timesteps"]
     [(["a", "pv", "e", "t0"], 4), (["a", "pv", "e", "t1"], 0), (["b", "line", "e", "t0"], 3),
      (["b", "line", "e", "t1"], 0), (["b", "bat", "e", "t0"], 0), (["b", "bat", "e", "t1"], 1)],
   result "flow_in" ["nodes", "techs", "carriers", "timesteps"]
     [(["a", "line", "e", "t0"], 3), (["a", "line", "e", "t1"], 0), (["b", "bat", "e", "t0"], 2),
      (["b", "bat", "e", "t1"], 0)],
   result "flow_export" ["nodes", "techs", "carriers", "timesteps"] [(["a", "pv", "e", "t0"], 1)],
   result "source_use" ["nodes", "techs", "timesteps"] [(["a", "pv", "t0"], 5), (["a", "pv", "t1"], 0)]]

def costsOf : List ((String × List String × (List Label → Rat)) × (String × Arr Bool)) :=
  [result "cost_investment_flow_cap" ["nodes", "techs", "carriers", "costs"]
     [(["a", "pv", "e", "m"], 40), (["a", "line", "e", "m"], 30), (["b", "line", "e", "m"], 30)],
   result "cost_investment_storage_cap" ["nodes", "techs", "costs"] [(["b", "bat", "m"], 15)],
   result "cost_investment_source_cap" ["nodes", "techs", "costs"] [(["a", "pv", "m"], 30)],
   result "cost_investment_area_use" ["nodes", "techs", "costs"] [(["a", "pv", "m"], 7)],
   result "cost_investment" ["nodes", "techs", "costs"]
     [(["a", "pv", "m"], 77), (["a", "line", "m"], 30), (["b", "line", "m"], 30), (["b", "bat", "m"], 15)],
   result "cost_investment_annualised" ["nodes", "techs", "costs"]
     [(["a", "pv", "m"], 77 / 20), (["a", "line", "m"], 6 / 5), (["b", "line", "m"], 6 / 5), (["b", "bat", "m"], 3 / 5)],
   result "cost_operation_variable" ["nodes", "techs", "costs", "timesteps"]
     [(["a", "pv", "m", "t0"], 5110), (["a", "pv", "m", "t1"], 0), (["b", "bat", "m", "t0"], 730),
      (["b", "bat", "m", "t1"], 730)],
   result "cost_operation_fixed" ["nodes", "techs", "costs"]
     [(["a", "pv", "m"], 77 / 10), (["a", "line", "m"], 18), (["b", "line", "m"], 18)],
   result "cost" ["nodes", "techs", "costs"]
     [(["a", "pv", "m"], 102431 / 20), (["a", "line", "m"], 96 / 5), (["b", "line", "m"], 96 / 5),
      (["b", "bat", "m"], 7303 / 5)]]

def model : Mini where
  labels := [("nodes", ["a", "b"]), ("techs", ["pv", "line", "bat"]), ("carriers", ["e"]), ("costs", ["m"]),
    ("timesteps", ["t0", "t1"])]
  data := pricesOf.map Prod.fst ++ resultsOf.map Prod.fst ++ costsOf.map Prod.fst ++
    [("distance", ["techs"], table [(["line"], 8)]), ("lifetime", ["techs"], fun _ => 25),
     ("timestep_resolution", ["timesteps"], fun _ => 12), ("timestep_weights", ["timesteps"], fun _ => 365),
     ("link_flow_cap", ["techs"], table [(["line"], 3)]), ("unmet_demand", ["nodes", "carriers", "timesteps"],
       table [(["b", "e", "t1"], 1)]), ("unused_supply", ["nodes", "carriers", "timesteps"], table []),
     ("objective_cost_weights", ["costs"], fun _ => 1), ("bigM", [], fun _ => 1000),
     ("spores_baseline_cost", [], fun _ => 400000), ("spores_slack", [], fun _ => 1 / 10),
     ("spores_score", ["nodes", "techs", "carriers"], table [(["a", "pv", "e"], 1000), (["b", "bat", "e"], 2000)])]
  lookups := []
  inputs := pricesOf.map Prod.snd ++ [("base_tech", ⟨.text, ⟨["techs"], fun c =>
    ([(["pv"], Where.Val.str "supply"), (["line"], .str "transmission"), (["bat"], .str "storage")].lookup c).getD .nan⟩,
    .nan⟩)]
  results := resultsOf.map Prod.snd ++ costsOf.map Prod.snd
  along := ["nodes", "techs", "carriers"]
  items := [["a", "pv", "e"], ["a", "line", "e"], ["b", "line", "e"], ["b", "bat", "e"]]


theorem ok : model.ok = true := by decide +kernel

/-- What a component stands for. -/
def quantity (n : String) (ρ : Point) : Rat :=
  match model.data.lookup n with
  | some (ds, g) => g (ds.map ρ)
  | none => 0

theorem quantity_is {n : String} {ds : List String} {g : List Label → Rat} (h : model.data.lookup n = some (ds, g)) :
    quantity n = fun ρ => g (ds.map ρ) := by
  funext ρ
  simp only [quantity, h]

theorem is {n : String} {ds' : List String} (ds : List String) (h : (model.data.lookup n).map Prod.fst = some ds')
    (hd : ∀ d ∈ ds, d ∈ ds') : Is model.E n ds (quantity n) := by
  rw [Option.map_eq_some_iff] at h
  obtain ⟨⟨ds'', g⟩, h, rfl⟩ := h
  rw [quantity_is h]
  exact is_data h hd

theorem decision {n : String} {ds : List String} (h : model.decides ds n = true) :
    Decision model.W model.E n ds (quantity n) := decides_ok h (fun _ hg => quantity_is hg)

theorem price_ok {n : String} (h : model.prices ["techs"] n = true) : Price model.W model.E n (quantity n) :=
  prices_ok h (fun _ _ hg => quantity_is hg)

theorem defines {c : Component Rat} (h : model.knows c.foreach c = true) :
    Defines model.W model.E List.dedup c (quantity c.defn.name) := knows_ok h (fun _ hg => quantity_is hg)

def costs : CostModel model.W model.E where
  flowCap := quantity "flow_cap"
  storageCap := quantity "storage_cap"
  sourceCap := quantity "source_cap"
  area := quantity "area_use"
  out := quantity "flow_out"
  inn := quantity "flow_in"
  exp := quantity "flow_export"
  source := quantity "source_use"
  perFlowCap := quantity "cost_flow_cap"
  perDistance := quantity "cost_flow_cap_per_distance"
  distance := quantity "distance"
  perStorageCap := quantity "cost_storage_cap"
  perSourceCap := quantity "cost_source_cap"
  perArea := quantity "cost_area_use"
  perYear := quantity "cost_om_annual"
  fraction := quantity "cost_om_annual_investment_fraction"
  perExport := quantity "cost_export"
  perOut := quantity "cost_flow_out"
  perIn := quantity "cost_flow_in"
  perSource := quantity "cost_source_use"
  hours := quantity "timestep_resolution"
  weight := quantity "timestep_weights"
  isFlowCap := decision (by decide +kernel)
  isStorageCap := decision (by decide +kernel)
  isSourceCap := decision (by decide +kernel)
  isArea := decision (by decide +kernel)
  isOut := decision (by decide +kernel)
  isInn := decision (by decide +kernel)
  isExp := decision (by decide +kernel)
  isSource := decision (by decide +kernel)
  isPerFlowCap := price_ok (by decide +kernel)
  isPerDistance := price_ok (by decide +kernel)
  isDistance := is [] (ds' := ["techs"]) (by decide +kernel) (by simp)
  isPerStorageCap := price_ok (by decide +kernel)
  isPerSourceCap := price_ok (by decide +kernel)
  isPerArea := price_ok (by decide +kernel)
  isPerYear := price_ok (by decide +kernel)
  isFraction := price_ok (by decide +kernel)
  isPerExport := price_ok (by decide +kernel)
  isPerOut := price_ok (by decide +kernel)
  isPerIn := price_ok (by decide +kernel)
  isPerSource := price_ok (by decide +kernel)
  isHours := is _ (ds' := ["timesteps"]) (by decide +kernel) (by simp)
  isWeight := is _ (ds' := ["timesteps"]) (by decide +kernel) (by simp)

def expressions : CostExpressions model.W model.E List.dedup where
  flowCap := quantity "cost_investment_flow_cap"
  storageCap := quantity "cost_investment_storage_cap"
  sourceCap := quantity "cost_investment_source_cap"
  area := quantity "cost_investment_area_use"
  invest := quantity "cost_investment"
  annual := quantity "cost_investment_annualised"
  running := quantity "cost_operation_variable"
  fixed := quantity "cost_operation_fixed"
  cost := quantity "cost"
  isFlowCap := defines (by decide +kernel)
  isStorageCap := defines (by decide +kernel)
  isSourceCap := defines (by decide +kernel)
  isArea := defines (by decide +kernel)
  isInvest := defines (by decide +kernel)
  isAnnual := defines (by decide +kernel)
  isVariable := defines (by decide +kernel)
  isFixed := defines (by decide +kernel)
  isCost := defines (by decide +kernel)

theorem frame : Frame model.W :=
  ⟨by decide +kernel, by decide +kernel, by decide +kernel⟩

theorem shapes : CostShapes model.W :=
  ⟨within_ok (by decide +kernel), within_ok (by decide +kernel), within_ok (by decide +kernel),
    within_ok (by decide +kernel)⟩

theorem costInputs : CostInputs model.W := ⟨within_ok (by decide +kernel), resultWithin_ok (by decide +kernel)⟩

/-- A technology at a node. -/
def spot (n t : Label) : Point := model.point [("nodes", n), ("techs", t)]

theorem spot_valid {n t : Label} (hn : n ∈ ["a", "b"]) (ht : t ∈ ["pv", "line", "bat"]) : Valid model.W (spot n t) :=
  valid_point ok (by
    simp only [List.all_cons, List.all_nil, Bool.and_true, Bool.and_eq_true, decide_eq_true_eq]
    exact ⟨hn, ht⟩)

/-- C81: what `pv` costs: an investment of 77, of which 1/20 a year; 5110 for what it uses and earns; one tenth of its
investment for its operation. -/
example : expressions.cost (spot "a" "pv") = 77 / 20 + 5110 + 77 / 10 ∧ expressions.invest (spot "a" "pv") = 77 := by
  have hv := spot_valid (n := "a") (t := "pv") (by decide) (by decide)
  rw [C81_breakdown (setting ok) frame costs shapes traverses expressions costInputs (by norm_num) hv,
    C81_investment (setting ok) frame costs shapes traverses expressions hv]
  constructor
  · unfold CostModel.total
    rw [C81_annual (setting ok) frame costs shapes traverses expressions costInputs (by norm_num)
      (rate := quantity "cost_depreciation_rate") (interest := quantity "cost_interest_rate")
      (lifetime := quantity "lifetime") (is [] (ds' := ["techs"]) (by decide +kernel) (by simp))
      (is [] (ds' := ["techs"]) (by decide +kernel) (by simp)) (is [] (ds' := ["techs"]) (by decide +kernel) (by simp))
      hv (r := 1 / 20) (.inl ⟨by decide +kernel, by decide +kernel⟩)]
    have e1 : costs.years (spot "a" "pv") = 1 := by decide +kernel
    have e2 : costs.invest (spot "a" "pv") = 77 := by decide +kernel
    have e3 : sumOver model.E "timesteps" costs.variableCost (spot "a" "pv") = 5110 := by decide +kernel
    have e4 : costs.fixedCost (spot "a" "pv") = 77 / 10 := by decide +kernel
    rw [e1, e2, e3, e4]
    norm_num
  · decide +kernel

theorem by_tech {n : String} (h : (model.data.lookup n).map Prod.fst = some ["techs"]) {ρ : Point}
    (ht : ρ "techs" = "line") : quantity n ρ = quantity n (spot "a" "line") := by
  rw [Option.map_eq_some_iff] at h
  obtain ⟨⟨ds, g⟩, h, rfl⟩ := h
  rw [quantity_is h]
  simp only [List.map_cons, List.map_nil, ht]
  rfl

theorem link : LinkData costs (spot "a" "line") "a" "b" 4 2 8 6 3 where
  differ := by decide
  nodes := by decide +kernel
  kind := by decide +kernel
  model := by
    intro l hl
    have hv := set_valid (spot_valid (n := "a") (t := "line") (by decide) (by decide)) (d := "nodes") (l := l)
      hl
    simp only [List.mem_cons, List.not_mem_nil, or_false] at hl
    rcases hl with rfl | rfl
    · exact in_model hv ["a", "line", "e"] (by decide +kernel) (by decide +kernel)
    · exact in_model hv ["b", "line", "e"] (by decide +kernel) (by decide +kernel)
  elsewhere := by
    intro l ha hb c
    show table _ [l, "line", c] = 0
    simp [table, List.lookup_cons, beq_false_of_ne ha, beq_false_of_ne hb]
  isPrice := by
    intro l _ c
    have h := by_tech (n := "cost_flow_cap") (by decide +kernel) (ρ := set (set (spot "a" "line") "nodes" l) "carriers" c) rfl
    exact h.trans (by decide +kernel)
  isPerDistance := by
    intro l _ c
    have h := by_tech (n := "cost_flow_cap_per_distance") (by decide +kernel) (ρ := set (set (spot "a" "line") "nodes" l) "carriers" c) rfl
    exact h.trans (by decide +kernel)
  isDistance := by
    intro l _ c
    have h := by_tech (n := "distance") (by decide +kernel) (ρ := set (set (spot "a" "line") "nodes" l) "carriers" c) rfl
    exact h.trans (by decide +kernel)
  isPerYear := by
    intro l _ c
    have h := by_tech (n := "cost_om_annual") (by decide +kernel) (ρ := set (set (spot "a" "line") "nodes" l) "carriers" c) rfl
    exact h.trans (by decide +kernel)
  isLink := ⟨quantity "link_flow_cap", is [] (ds' := ["techs"]) (by decide +kernel) (by simp), by decide +kernel⟩

theorem line_satisfied {l : Label} (hl : l ∈ ["a", "b"]) :
    Satisfied (model.con symmetricTransmission) (set (spot "a" "line") "nodes" l) :=
  con_holds (by decide +kernel) (set_valid (spot_valid (by decide) (by decide)) hl)

/-- C81: the link of length 8 and capacity 3 costs `(4 + 2 * 8) * 3` at its ends together; the yearly price of 6 is
counted twice. -/
example : sumOver model.E "nodes" (sumOver model.E "carriers" costs.flowCapCost) (spot "a" "line") = (4 + 2 * 8) * 3 ∧
    sumOver model.E "nodes" (sumOver model.E "carriers" (fun σ => costs.perYear σ * costs.flowCap σ)) (spot "a" "line") =
      2 * (6 * 3) :=
  ⟨C81_link (setting ok) frame costs shapes traverses (con_ok (by decide +kernel)) link
      (spot_valid (by decide) (by decide)) (fun _ hl => line_satisfied hl),
    C81_link_yearly (setting ok) frame costs shapes traverses (con_ok (by decide +kernel)) link
      (spot_valid (by decide) (by decide)) (fun _ hl => line_satisfied hl)⟩

def objective : ObjectiveData model.E where
  unmet := quantity "unmet_demand"
  unused := quantity "unused_supply"
  classWeight := quantity "objective_cost_weights"
  penalty := quantity "bigM"
  isUnmet := is _ (ds' := ["nodes", "carriers", "timesteps"]) (by decide +kernel) (by simp)
  isUnused := is _ (ds' := ["nodes", "carriers", "timesteps"]) (by decide +kernel) (by simp)
  isClassWeight := is _ (ds' := ["costs"]) (by decide +kernel) (by simp)
  isPenalty := is _ (ds' := []) (by decide +kernel) (by simp)

theorem some_item : ∃ σ, Valid model.W σ ∧ model.W.matrix.at σ = true :=
  ⟨spot "a" "pv", spot_valid (by decide) (by decide), by decide +kernel⟩

/-- C81: the objective is what all technologies cost, and 365000 for the demand that is not met. -/
example : (model.expr minCostOptimisation).at (spot "a" "pv") =
    some (102431 / 20 + 2 * (96 / 5) + 7303 / 5 + 365000) := by
  rw [C81_objective (setting ok) frame traverses objective some_item (cost_decision (setting ok) traverses expressions).is
    costs.isWeight (expr_ok (by decide +kernel)) (spot_valid (by decide) (by decide))]
  have : objective.value expressions.cost costs.weight (spot "a" "pv") =
    102431 / 20 + 2 * (96 / 5) + 7303 / 5 + 365000 := by decide +kernel
  rw [this]

/-- C82: with a baseline of 400000 and a slack of one tenth, this plan is allowed. -/
example : Satisfied (model.con totalSystemCostMax) (spot "a" "pv") := by
  rw [(C82_slack objective (setting ok) frame traverses some_item (cost_decision (setting ok) traverses expressions)
    costs.isWeight (baseline := quantity "spores_baseline_cost") (slack := quantity "spores_slack")
    (is [] (ds' := []) (by decide +kernel) (by simp)) (is [] (ds' := []) (by decide +kernel) (by simp))
    (con_ok (by decide +kernel)) (spot_valid (by decide) (by decide))).2]
  decide +kernel

end CostDemo
end BaseMath
end Calliope
