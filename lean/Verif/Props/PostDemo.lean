import Verif.Props.SupplyDemo
import Verif.Props.Postprocess

/-!
# Examples for C86

The model of `SupplyDemo` with costs and time steps that stand for several.  The source of `pv` is given for each time
step or, in the second variant, once for all of them; `wood` has to use more than it may.
-/

namespace Calliope
namespace BaseMath

open Grid Infix Expr Expand Build Where Mini

namespace Mini
variable {M : Mini}

/-- A result is there, with data and items along the same dimensions, all among `sets`. -/
def shows (M : Mini) (n : String) (sets : List String) : Bool :=
  match M.data.lookup n, M.results.lookup n with
  | some (ds, _), some a => decide (a.dims = ds) && ds.all (fun d => decide (d ∈ sets))
  | _, _ => false

theorem shows_ok {n : String} {sets : List String} (h : M.shows n sets = true) : Seen M.W n sets (M.quantity n) := by
  unfold shows at h
  split at h
  · rename_i ds g a hd hr
    simp only [Bool.and_eq_true, decide_eq_true_eq, List.all_eq_true] at h
    obtain ⟨h1, h2⟩ := h
    have hn : M.W.number n = some ⟨ds, fun c => if a.val c then .num (g c) else .nan⟩ := by
      show M.number n = _
      unfold number
      rw [hd, hr]
      simp only [h1, if_true]
    refine ⟨?_, ?_⟩
    · intro b hb
      rw [hn, Option.some.injEq] at hb
      subst hb
      exact h2
    · intro ρ _
      rw [hn, quantity_is hd]
      simp only [numberOf, Arr.at]
      have hex : Exists M.W n ρ ↔ a.val (ds.map ρ) = true := by
        constructor
        · rintro ⟨b, hb, hv⟩
          rw [show M.W.result n = M.results.lookup n from rfl, hr, Option.some.injEq] at hb
          subst hb
          rw [← hv, ← h1]
          rfl
        · intro hv
          refine ⟨a, hr, ?_⟩
          rw [← hv, ← h1]
          rfl
      rw [hex]
      by_cases hv : a.val (ds.map ρ) = true
      · simp only [hv, if_true, asNumber, true_and]
        exact ⟨fun h => by cases h; assumption, fun h => .num h⟩
      · simp only [hv, Bool.false_eq_true, if_false, asNumber, false_and, iff_false]
        intro h
        cases h
  · simp at h

/-- A component has these dimensions only. -/
def varies (M : Mini) (n : String) (ds : List String) : Bool :=
  match M.data.lookup n with
  | some (ds', _) => ds'.all (fun d => decide (d ∈ ds))
  | none => true

theorem varies_ok {n : String} {ds : List String} (h : M.varies n ds = true) : VariesAlong ds (M.quantity n) := by
  intro ρ σ hs
  unfold varies at h
  unfold quantity
  split at h
  · rename_i ds' g hl
    rw [hl]
    simp only [List.all_eq_true, decide_eq_true_eq] at h
    show g (ds'.map σ) = g (ds'.map ρ)
    rw [List.map_congr_left fun d hd => hs d (h d hd)]
  · rename_i hl
    rw [hl]

theorem pos_ok {n : String} (h : M.every (fun x => decide (0 < x)) n = true) (ρ : Point) (hρ : Valid M.W ρ) :
    0 < M.quantity n ρ := of_decide_eq_true (every_ok h hρ)

end Mini

namespace PostDemo

open LimitDemo SupplyDemo

def source : Bool → (String × List String × (List Label → Rat)) × (String × Input)
  | false => param "source_use_max" ["techs", "timesteps"]
      [(["pv", "t0"], 1), (["pv", "t1"], 2), (["pv", "t2"], 1), (["wood", "t0"], 1), (["wood", "t1"], 1),
       (["wood", "t2"], 1)] 1000
  | true => param "source_use_max" ["techs"] [(["pv"], 2), (["wood"], 1)] 1000

def params' (k : Bool) : List ((String × List String × (List Label → Rat)) × (String × Input)) :=
  source k :: param "timestep_weights" ["timesteps"] [(["t0"], 3)] 1 :: params

def results' : List ((String × List String × (List Label → Rat)) × (String × Arr Bool)) :=
  result "total_generation" ["techs", "carriers"] [(["pv", "e"], 9), (["wood", "e"], 6), (["wood", "h"], 6)] ::
  result "cost" ["nodes", "techs", "costs"] [(["a", "pv", "m"], 18), (["a", "wood", "m"], 12)] :: results

def model' (k : Bool) : Mini := { SupplyDemo.model with
  labels := ("costs", ["m"]) :: SupplyDemo.model.labels
  data := (params' k).map Prod.fst ++ results'.map Prod.fst
  inputs := (params' k).map Prod.snd ++ SupplyDemo.model.inputs
  results := results'.map Prod.snd
  config := [("ensure_feasibility", .bool true)]
  totals := [(("total_generation", ["techs"]), ⟨["carriers"], fun c => match c with
    | ["e"] => .num 15
    | ["h"] => .num 6
    | _ => .nan⟩)] }

/-- The constraints and variables that postprocessed results depend on. -/
def rules : List (Component Rat) := [flowOutMax, sourceAvailabilitySupply]
def posts : List (Component Rat) :=
  [capacityFactor, systemwideCapacityFactor, systemwideLevelisedCost, totalLevelisedCost, unmetSum, curtailment,
   totalCurtailment]
def chosen : List (Variable Rat) :=
  [flowCapVar, flowOutVar, flowInVar, flowExportVar, areaUseVar, sourceUseVar, sourceCapVar, storageCapVar, storageVar]

variable (k : Bool)

theorem model_ok' : (model' k).ok = true := by cases k <;> decide +kernel
theorem all_built' : ∀ c ∈ rules, isOk (buildConstraint (model' k).W (model' k).E List.dedup c) = true := by
  cases k <;> decide +kernel
theorem all_hold' : ∀ c ∈ rules, (model' k).holds c = true := by cases k <;> decide +kernel
theorem all_chosen' : ∀ v ∈ chosen, (model' k).chooses v = true := by cases k <;> decide +kernel
theorem all_posts : ∀ c ∈ posts, isOk (buildExpression (model' k).W (model' k).E List.dedup c) = true := by
  cases k <;> decide +kernel

theorem setting' : Setting (model' k).W (model' k).E power := Mini.setting (model_ok' k)
theorem rule {c : Component Rat} (hc : c ∈ rules) :
    buildConstraint (model' k).W (model' k).E List.dedup c = .ok ((model' k).con c) := con_ok (all_built' k c hc)
theorem ruled {c : Component Rat} (hc : c ∈ rules) {ρ : Point} (hρ : Valid (model' k).W ρ) :
    Satisfied ((model' k).con c) ρ := con_holds (all_hold' k c hc) hρ
theorem post {c : Component Rat} (hc : c ∈ posts) :
    buildExpression (model' k).W (model' k).E List.dedup c = .ok ((model' k).expr c) := expr_ok (all_posts k c hc)

def plant' : Plant (model' k).W (model' k).E where
  out := (model' k).quantity "flow_out"
  inn := (model' k).quantity "flow_in"
  exp := (model' k).quantity "flow_export"
  source := (model' k).quantity "source_use"
  level := (model' k).quantity "storage"
  cap := (model' k).quantity "flow_cap"
  sourceCap := (model' k).quantity "source_cap"
  storageCap := (model' k).quantity "storage_cap"
  hours := (model' k).quantity "timestep_resolution"
  parasitic := (model' k).quantity "flow_out_parasitic_eff"
  isOut := chooses_ok (v := flowOutVar) (all_chosen' k _ (by simp [chosen]))
  isInn := chooses_ok (v := flowInVar) (all_chosen' k _ (by simp [chosen]))
  isExp := chooses_ok (v := flowExportVar) (all_chosen' k _ (by simp [chosen]))
  isSource := chooses_ok (v := sourceUseVar) (all_chosen' k _ (by simp [chosen]))
  isLevel := chooses_ok (v := storageVar) (all_chosen' k _ (by simp [chosen]))
  isCap := .inl (chooses_ok (v := flowCapVar) (all_chosen' k _ (by simp [chosen])))
  isSourceCap := .inl (chooses_ok (v := sourceCapVar) (all_chosen' k _ (by simp [chosen])))
  isStorageCap := .inl (chooses_ok (v := storageCapVar) (all_chosen' k _ (by simp [chosen])))
  isHours := has_ok (by cases k <;> decide +kernel)
  isParasitic := has_ok (by cases k <;> decide +kernel)
  capNonneg := nonneg_ok (by cases k <;> decide +kernel)
  hoursNonneg := nonneg_ok (by cases k <;> decide +kernel)
  parasiticNonneg := nonneg_ok (by cases k <;> decide +kernel)

def needs' : Needs (model' k).W (model' k).E where
  area := (model' k).quantity "area_use"
  sinkEquals := (model' k).quantity "sink_use_equals"
  sinkMax := (model' k).quantity "sink_use_max"
  sinkMin := (model' k).quantity "sink_use_min"
  sourceEquals := (model' k).quantity "source_use_equals"
  sourceMax := (model' k).quantity "source_use_max"
  sourceMin := (model' k).quantity "source_use_min"
  sourceEff := (model' k).quantity "source_eff"
  isArea := has_ok (by cases k <;> decide +kernel)
  isSinkEquals := has_ok (by cases k <;> decide +kernel)
  isSinkMax := has_ok (by cases k <;> decide +kernel)
  isSinkMin := has_ok (by cases k <;> decide +kernel)
  isSourceEquals := has_ok (by cases k <;> decide +kernel)
  isSourceMax := has_ok (by cases k <;> decide +kernel)
  isSourceMin := has_ok (by cases k <;> decide +kernel)
  isSourceEff := has_ok (by cases k <;> decide +kernel)
  kindWithin := within_ok (by cases k <;> decide +kernel)
  sinkWithin := within_ok (by cases k <;> decide +kernel)
  sourceWithin := within_ok (by cases k <;> decide +kernel)

theorem sees_cap : Seen (model' k).W "flow_cap" ["nodes", "techs", "carriers"] (plant' k).cap :=
  shows_ok (by cases k <;> decide +kernel)
theorem sees_source : Seen (model' k).W "source_cap" ["nodes", "techs"] (plant' k).sourceCap :=
  shows_ok (by cases k <;> decide +kernel)

def accounts : Accounts (model' k).W (model' k).E where
  cost := (model' k).quantity "cost"
  generation := (model' k).quantity "total_generation"
  isCost := has_ok (by cases k <;> decide +kernel)
  isGeneration := has_ok (by cases k <;> decide +kernel)
  within := resultWithin_ok (by cases k <;> decide +kernel)
  seen := shows_ok (by cases k <;> decide +kernel)

theorem clock : Clock (model' k).W (model' k).E (plant' k).hours ((model' k).quantity "timestep_weights") where
  isHours := has_ok (by cases k <;> decide +kernel)
  isWeight := has_ok (by cases k <;> decide +kernel)
  hoursPos := pos_ok (by cases k <;> decide +kernel)
  weightPos := pos_ok (by cases k <;> decide +kernel)
  hoursOnly := varies_ok (by cases k <;> decide +kernel)
  weightOnly := varies_ok (by cases k <;> decide +kernel)

def at' (l : List (String × Label)) : Point := (model' k).point l

theorem at_valid {l : List (String × Label)}
    (h : l.all (fun p => decide (p.2 ∈ (model' k).coords p.1)) = true) : Valid (model' k).W (at' k l) :=
  valid_point (model_ok' k) h

theorem parasitic_le : ∀ ρ, Valid (model' k).W ρ → (plant' k).parasitic ρ ≤ 1 := fun ρ hρ =>
  of_decide_eq_true (every_ok (p := fun x => decide (x ≤ 1)) (n := "flow_out_parasitic_eff")
    (by cases k <;> decide +kernel) hρ)

/-- C86_capacity_factor, C86_fraction -/
example : ((model' false).expr capacityFactor).at (at' false [("timesteps", "t1")]) = some (1 / 2) := by
  have h := C86_capacity_factor (setting' false) traverses (plant' false) (sees_cap false) (clock false).hoursPos
    (post false (c := capacityFactor) (by simp [posts]))
    (at_valid false (l := [("timesteps", "t1")]) (by decide +kernel))
  exact (h.2 (by decide +kernel)).trans (by decide +kernel)
example {x : Rat} (hx : ((model' false).expr capacityFactor).at (at' false [("timesteps", "t1")]) = some x) :
    0 ≤ x ∧ x ≤ 1 :=
  C86_fraction (setting' false) traverses (plant' false) (sees_cap false) (clock false).hoursPos
    (post false (c := capacityFactor) (by simp [posts]))
    (at_valid false (l := [("timesteps", "t1")]) (by decide +kernel)) (rule false (c := flowOutMax) (by simp [rules]))
    (ruled false (by simp [rules]) (at_valid false (by decide +kernel)))
    (parasitic_le false _ (at_valid false (by decide +kernel))) hx

/-- C86_systemwide, C86_systemwide_fraction -/
example : ((model' false).expr systemwideCapacityFactor).at (at' false []) = some (13 / 36) := by
  have h := C86_systemwide (setting' false) traverses (plant' false) (sees_cap false)
    (varies_ok (M := model' false) (n := "flow_cap") (ds := ["nodes", "techs", "carriers"]) (by decide +kernel)) (clock false)
    (post false (c := systemwideCapacityFactor) (by simp [posts])) (at_valid false (l := []) (by decide +kernel))
  exact (h.2 (by decide +kernel)).trans (by decide +kernel)
example {x : Rat} (hx : ((model' false).expr systemwideCapacityFactor).at (at' false []) = some x) :
    0 ≤ x ∧ x ≤ 1 :=
  C86_systemwide_fraction (setting' false) traverses (plant' false) (sees_cap false)
    (varies_ok (M := model' false) (n := "flow_cap") (ds := ["nodes", "techs", "carriers"]) (by decide +kernel)) (clock false)
    (post false (c := systemwideCapacityFactor) (by simp [posts])) (at_valid false (l := []) (by decide +kernel))
    (rule false (c := flowOutMax) (by simp [rules])) (fun _ h => ruled false (by simp [rules]) h) (parasitic_le false) hx

/-- C86_levelised: two units of money for a unit of electricity from `pv`. -/
example : ((model' false).expr systemwideLevelisedCost).at (at' false []) = some 2 := by decide +kernel
example {x : Rat} (hx : ((model' false).expr systemwideLevelisedCost).at (at' false []) = some x) : x * 9 = 18 :=
  ((C86_levelised (setting' false) traverses (accounts false)
    (post false (c := systemwideLevelisedCost) (by simp [posts])) (at_valid false (l := []) (by decide +kernel))).2 x
    hx).trans (by decide +kernel)

/-- The levelised costs of electricity and of heat from `wood` account for its costs of 12 twice. -/
theorem C86_wood_twice : ∃ x y,
    ((model' false).expr systemwideLevelisedCost).at (at' false [("techs", "wood")]) = some x ∧
    ((model' false).expr systemwideLevelisedCost).at (at' false [("techs", "wood"), ("carriers", "h")]) = some y ∧
    x * 6 + y * 6 = 24 :=
  ⟨2, 2, by decide +kernel, by decide +kernel, by decide +kernel⟩
example {x y : Rat} (hx : ((model' false).expr systemwideLevelisedCost).at (at' false [("techs", "wood")]) = some x)
    (hy : ((model' false).expr systemwideLevelisedCost).at (at' false [("techs", "wood"), ("carriers", "h")]) = some y) :
    x * 6 + y * 6 = 24 :=
  (C86_levelised_again (setting' false) traverses (accounts false)
    (post false (c := systemwideLevelisedCost) (by simp [posts]))
    (at_valid false (l := [("techs", "wood")]) (by decide +kernel))
    (at_valid false (l := [("techs", "wood"), ("carriers", "h")]) (by decide +kernel))
    (varies_ok (M := model' false) (n := "cost") (ds := ["nodes", "techs", "costs"]) (by decide +kernel)) (by
      intro d hd
      simp only [List.mem_cons, List.not_mem_nil, or_false] at hd
      rcases hd with rfl | rfl <;> rfl) hx hy).trans (by decide +kernel)

theorem sees_total : SeenTotal (model' false).W (model' false).E "total_generation" "techs" ["carriers"]
    (accounts false).generation where
  within := by
    intro a ha
    obtain rfl := Option.some.inj (show some _ = some a from ha)
    exact fun d hd => hd
  positive := by
    intro ρ hρ
    refine forall_points (M := model' false) (ds := ["carriers"]) (by simp)
      (P := fun ρ => Less (.num 0) (asNumber (numberOf ((model' false).W.sums "total_generation" ["techs"]) ρ)) ↔
        0 < sumOver (model' false).E "techs" (accounts false).generation ρ) ?_ ?_ hρ
    · intro ρ σ _ hs hP
      have h1 : numberOf ((model' false).W.sums "total_generation" ["techs"]) ρ =
          numberOf ((model' false).W.sums "total_generation" ["techs"]) σ := by
        show (Arr.mk ["carriers"] _ : Arr Where.Val).at ρ = (Arr.mk ["carriers"] _ : Arr Where.Val).at σ
        exact at_congr _ fun d hd => (hs d hd).symm
      have h2 : sumOver (model' false).E "techs" (accounts false).generation ρ =
          sumOver (model' false).E "techs" (accounts false).generation σ := by
        unfold sumOver
        refine congrArg List.sum (List.map_congr_left fun l _ =>
          varies_ok (M := model' false) (n := "total_generation") (ds := ["techs", "carriers"]) (by decide +kernel) _ _ ?_)
        intro d hd
        simp only [List.mem_cons, List.not_mem_nil, or_false] at hd
        rcases hd with rfl | rfl
        · simp [Expr.set]
        · simpa [Expr.set] using (hs "carriers" (by simp)).symm
      rw [h1, h2]
      exact hP
    · intro r hr
      have hr' : r = ["e"] ∨ r = ["h"] := by
        revert r
        decide +kernel
      rcases hr' with rfl | rfl
      · exact iff_of_true (.num (a := 0) (b := 15) (by norm_num)) (by decide +kernel)
      · exact iff_of_true (.num (a := 0) (b := 6) (by norm_num)) (by decide +kernel)

/-- C86_total_levelised: the levelised costs of electricity (15 units) and of heat (6 units) each account for all the
costs of 30, also those of `pv`, which gives no heat. -/
theorem C86_heat_from_sun : ∃ x y,
    ((model' false).expr totalLevelisedCost).at (at' false []) = some x ∧
    ((model' false).expr totalLevelisedCost).at (at' false [("carriers", "h")]) = some y ∧
    x * 15 = 30 ∧ y * 6 = 30 :=
  ⟨2, 5, by decide +kernel, by decide +kernel, by decide +kernel, by decide +kernel⟩
example {x y : Rat} (hx : ((model' false).expr totalLevelisedCost).at (at' false []) = some x)
    (hy : ((model' false).expr totalLevelisedCost).at (at' false [("carriers", "h")]) = some y) :
    x * 15 + y * 6 = 60 := by
  have h := C86_total_again (setting' false) traverses (accounts false) sees_total
    (post false (c := totalLevelisedCost) (by simp [posts])) (at_valid false (l := []) (by decide +kernel))
    (at_valid false (l := [("carriers", "h")]) (by decide +kernel))
    (varies_ok (M := model' false) (n := "cost") (ds := ["nodes", "techs", "costs"]) (by decide +kernel)) (by
      intro d hd
      rw [List.mem_singleton] at hd
      subst hd
      rfl) hx hy
  rw [show sumOver (model' false).E "techs" (accounts false).generation (at' false []) = 15 by decide +kernel,
    show sumOver (model' false).E "techs" (accounts false).generation (at' false [("carriers", "h")]) = 6 by
      decide +kernel] at h
  exact h.trans (by decide +kernel)

/-- C86_unmet -/
example {x : Rat} (hx : ((model' false).expr unmetSum).at (at' false []) = some x) : x = 0 :=
  (C86_unmet (setting' false) traverses (has_ok (by decide +kernel)) (has_ok (by decide +kernel))
    (post false (c := unmetSum) (by simp [posts])) (at_valid false (l := []) (by decide +kernel)) hx).trans
    (by decide +kernel)
example : ((model' false).expr unmetSum).at (at' false []) = some 0 := by decide +kernel

/-! ### Curtailment -/

theorem sees_max : SeenInput (model' k).W "source_use_max" (needs' k).sourceMax := by
  intro ρ hρ _
  have key : valueOf ((model' k).W.input "source_use_max") ρ = .num ((needs' k).sourceMax ρ) := by
    refine forall_points (M := model' k) (ds := ["techs", "timesteps"]) (by simp)
      (P := fun ρ => valueOf ((model' k).W.input "source_use_max") ρ = .num ((needs' k).sourceMax ρ)) ?_ ?_ hρ
    · intro ρ σ _ hs hP
      have h1 : (needs' k).sourceMax ρ = (needs' k).sourceMax σ :=
        (varies_ok (M := model' k) (n := "source_use_max") (ds := ["techs", "timesteps"])
          (by cases k <;> decide +kernel) ρ σ hs).symm
      have h2 : valueOf ((model' k).W.input "source_use_max") ρ = valueOf ((model' k).W.input "source_use_max") σ := by
        unfold valueOf
        rw [at_congr _ fun d hd => hs d (by
          have : ∀ d ∈ ((model' k).W.input "source_use_max").arr.dims, d ∈ ["techs", "timesteps"] := by
            cases k <;> decide +kernel
          exact this d hd)]
      rw [h1, h2]
      exact hP
    · cases k <;> decide +kernel
  rw [key]
  simp only [asNumber]
  exact ⟨fun h => by cases h; assumption, fun h => .num h⟩

/-- C86_curtailment, C86_curtailed_partial: a third of the sun of the first step is not used. -/
example {x : Rat} (hx : ((model' false).expr curtailment).at (at' false []) = some x) : x = 1 / 3 :=
  ((C86_curtailment (setting' false) traverses (plant' false) (needs' false) (sees_source false) (sees_max false)
    (post false (c := curtailment) (by simp [posts])) (at_valid false (l := []) (by decide +kernel))
    (.inr (.inl (by decide +kernel))) (by decide +kernel)).2 x hx).trans (by decide +kernel)
example : ((model' false).expr curtailment).at (at' false []) = some (1 / 3) := by decide +kernel
example {x : Rat} (hx : ((model' false).expr curtailment).at (at' false []) = some x) : 0 ≤ x ∧ x ≤ 1 :=
  C86_curtailed_partial (setting' false) traverses (plant' false) (needs' false) (sees_source false) (sees_max false)
    (post false (c := curtailment) (by simp [posts])) (at_valid false (l := []) (by decide +kernel))
    (.inr (.inl (by decide +kernel))) (by decide +kernel) (rule false (c := sourceAvailabilitySupply) (by simp [rules]))
    (ruled false (by simp [rules]) (at_valid false (by decide +kernel))) ⟨_, rfl, by decide +kernel⟩
    (by decide +kernel) (by decide +kernel) hx

/-- C86_curtailment_given: `wood` has to use two units of one, its curtailment is negative. -/
theorem C86_negative : ∃ x, ((model' false).expr curtailment).at (at' false [("techs", "wood")]) = some x ∧ x = -1 :=
  ⟨-1, by decide +kernel, rfl⟩
example {x : Rat} (hx : ((model' false).expr curtailment).at (at' false [("techs", "wood")]) = some x) : x < 0 :=
  (C86_curtailment_given (setting' false) traverses (plant' false) (needs' false) (sees_source false) (sees_max false)
    (post false (c := curtailment) (by simp [posts])) (at_valid false (l := [("techs", "wood")]) (by decide +kernel))
    (.inr (.inr (by decide +kernel))) (by decide +kernel) (rule false (c := sourceAvailabilitySupply) (by simp [rules]))
    (ruled false (by simp [rules]) (at_valid false (by decide +kernel))) ⟨_, rfl, by decide +kernel⟩
    (by decide +kernel) hx).2 (by decide +kernel)

theorem unit_dims : ∀ d ∈ ((model' k).W.input "source_unit").arr.dims, d ∈ ["nodes", "techs"] := by
  cases k <;> decide +kernel

/-- C86_total_curtailment, C86_total_curtailed_partial -/
example {x : Rat} (hx : ((model' false).expr totalCurtailment).at (at' false []) = some x) : x = 1 / 4 :=
  ((C86_total_curtailment (setting' false) traverses (plant' false) (needs' false) (sees_source false) (unit_dims false)
    (has_ok (by decide +kernel)) (post false (c := totalCurtailment) (by simp [posts]))
    (at_valid false (l := []) (by decide +kernel)) (.inr (.inl (by decide +kernel))) (by decide +kernel)).2 x hx).trans
    (by decide +kernel)
example : ((model' false).expr totalCurtailment).at (at' false []) = some (1 / 4) := by decide +kernel
example {x : Rat} (hx : ((model' false).expr totalCurtailment).at (at' false []) = some x) : 0 ≤ x ∧ x ≤ 1 := by
  have hv : ∀ l ∈ (model' false).W.coords "timesteps", Valid (model' false).W (set (at' false []) "timesteps" l) :=
    fun l hl => valid_set (at_valid false (l := []) (by decide +kernel)) hl
  refine C86_total_curtailed_partial (setting' false) traverses (plant' false) (needs' false) (sees_source false)
    (unit_dims false) (has_ok (by decide +kernel)) (post false (c := totalCurtailment) (by simp [posts]))
    (at_valid false (l := []) (by decide +kernel)) (.inr (.inl (by decide +kernel))) (by decide +kernel)
    (rule false (c := sourceAvailabilitySupply) (by simp [rules]))
    (fun l hl => ruled false (by simp [rules]) (hv l hl))
    (fun l hl => in_model (hv l hl) ["a", "pv", "e"] ?_ (by decide)) (fun l hl => ⟨_, rfl, ?_⟩)
    (fun l hl => .inr (.inl ?_)) ?_ ?_ hx
  · revert l; decide +kernel
  · revert l; decide +kernel
  · revert l; decide +kernel
  · decide +kernel
  · decide +kernel

/-- C86_constant_source: with the same source in all time steps, a solution within all limits has a negative total
curtailment. -/
theorem C86_constant : ∃ x, ((model' true).expr totalCurtailment).at (at' true []) = some x ∧ x = -1 / 2 :=
  ⟨-1 / 2, by decide +kernel, rfl⟩
example {x : Rat} (hx : ((model' true).expr totalCurtailment).at (at' true []) = some x) : x = 1 - 18 / 12 := by
  have lacks : ∀ n : String, (model' true).varies n ["nodes", "techs", "carriers"] = true →
      Lacks (model' true).E n "timesteps" := by
    intro n h c hc hm
    unfold varies at h
    simp only [Mini.E] at hc
    cases hl : (model' true).data.lookup n with
    | none => rw [hl] at hc; cases hc
    | some p =>
      rw [hl] at hc h
      obtain rfl := Option.some.inj hc
      simp only [List.all_eq_true, decide_eq_true_eq] at h
      exact absurd (h _ hm) (by simp)
  exact (C86_constant_source (setting' true) traverses (plant' true) (needs' true) (sees_source true) (unit_dims true)
    (lacks _ (by decide +kernel)) (lacks _ (by decide +kernel)) (lacks _ (by decide +kernel))
    (post true (c := totalCurtailment) (by simp [posts]))
    (at_valid true (l := []) (by decide +kernel)) (.inr (.inl (by decide +kernel))) (by decide +kernel) hx).1.trans
    (by decide +kernel)

end PostDemo
end BaseMath
end Calliope
