import Mathlib.Tactic.IntervalCases
import Mathlib.Algebra.Order.Ring.Rat
import Mathlib.Data.Rat.Cast.Order
import Verif.Props.BaseMath
import Verif.Props.BaseCost
import Verif.Props.BaseTotal

/-!
# A small model that meets the hypotheses of the theorems about the base math

Two nodes, `n` and `m`.  The technologies: `sun` (supply at `n`), `line` (transmission from `n` to `m`), and at `m`
`bat` (storage), `fac` (conversion from `e` to `h`), `load` (demand for `e`), `warm` (demand for `h`).  Two time
steps.
-/

namespace Calliope
namespace BaseMath
namespace Demo

open Grid Infix Expr Expand Build Where

def coords (d : String) : List Label :=
  if d = "nodes" then ["n", "m"]
  else if d = "techs" then ["sun", "line", "bat", "fac", "load", "warm"]
  else if d = "carriers" then ["e", "h"]
  else if d = "timesteps" then ["t0", "t1"]
  else if d = "costs" then ["money"]
  else ["only"]

/-- A table of numbers, zero elsewhere. -/
def table (l : List (List Label × Rat)) (c : List Label) : Rat := (l.lookup c).getD 0

/-- Nodes, techs, carriers and time steps. -/
def flowDims : List String := ["nodes", "techs", "carriers", "timesteps"]

/-- Dimensions and values of the components. -/
def data : List (String × List String × (List Label → Rat)) :=
  [("flow_out", flowDims, table [(["n", "sun", "e", "t0"], 30), (["n", "sun", "e", "t1"], 6),
      (["m", "line", "e", "t0"], 15), (["m", "line", "e", "t1"], 3), (["m", "bat", "e", "t1"], 1),
      (["m", "fac", "h", "t0"], 1), (["m", "fac", "h", "t1"], 1)]),
   ("flow_in", flowDims, table [(["n", "line", "e", "t0"], 30), (["n", "line", "e", "t1"], 6),
      (["m", "bat", "e", "t0"], 10), (["m", "fac", "e", "t0"], 2), (["m", "fac", "e", "t1"], 2),
      (["m", "load", "e", "t0"], 3), (["m", "load", "e", "t1"], 2),
      (["m", "warm", "h", "t0"], 1), (["m", "warm", "h", "t1"], 1)]),
   ("flow_out_inc_eff", flowDims, table [(["n", "sun", "e", "t0"], 30), (["n", "sun", "e", "t1"], 6),
      (["m", "line", "e", "t0"], 30), (["m", "line", "e", "t1"], 6), (["m", "bat", "e", "t1"], 1),
      (["m", "fac", "h", "t0"], 2), (["m", "fac", "h", "t1"], 2)]),
   ("flow_in_inc_eff", flowDims, table [(["n", "line", "e", "t0"], 30), (["n", "line", "e", "t1"], 6),
      (["m", "bat", "e", "t0"], 5), (["m", "fac", "e", "t0"], 2), (["m", "fac", "e", "t1"], 2),
      (["m", "load", "e", "t0"], 3), (["m", "load", "e", "t1"], 2),
      (["m", "warm", "h", "t0"], 1), (["m", "warm", "h", "t1"], 1)]),
   ("flow_export", flowDims, fun _ => 0),
   ("unmet_demand", [], fun _ => 0),
   ("unused_supply", [], fun _ => 0),
   ("storage", ["nodes", "techs", "timesteps"], table [(["m", "bat", "t0"], 6), (["m", "bat", "t1"], 2)]),
   ("storage_initial", [], fun _ => 1 / 8),
   ("storage_cap", ["techs"], table [(["bat"], 8)]),
   ("storage_loss", ["techs"], table [(["bat"], 1 / 2)]),
   ("timestep_resolution", ["timesteps"], fun _ => 1),
   ("timestep_weights", ["timesteps"], fun c => if c = ["t1"] then 2 else 1),
   ("flow_out_eff", ["techs"], fun c => if c = ["line"] ∨ c = ["fac"] then 1 / 2 else 1),
   ("flow_out_parasitic_eff", [], fun _ => 1),
   ("flow_out_eff_per_distance", [], fun _ => 1),
   ("flow_in_eff", ["techs"], fun c => if c = ["bat"] then 1 / 2 else 1),
   ("flow_in_eff_per_distance", [], fun _ => 1),
   ("distance", [], fun _ => 1),
   ("cost_investment", ["nodes", "techs", "costs"], table [(["m", "bat", "money"], 100)]),
   ("cost_interest_rate", ["techs"], table [(["bat"], 1 / 10)]),
   ("cost_depreciation_rate", [], fun _ => 1),
   ("lifetime", [], fun _ => 2)]

def power (a b : Rat) : Rat := a ^ b.num.toNat

def op : Arith.Op → Option Rat → Option Rat → Option Rat
  | .plus, some a, some b => some (a + b)
  | .minus, some a, some b => some (a - b)
  | .times, some a, some b => some (a * b)
  | .div, some a, some b => if b = 0 then none else some (a / b)
  | .pow, some a, some b => some (power a b)
  | _, _, _ => none

def E : Expr.Env Rat where
  coords := coords
  comp n := (data.lookup n).map (fun p => ⟨⟨p.1, fun c => some (p.2 c)⟩, none⟩)
  isDim _ := false
  lookup n := if n = "lookup_cluster_last_timestep" then some ⟨["timesteps"], fun _ => some "t1"⟩ else none
  carrier _ := none
  period _ l := l
  op := op
  neg := Option.map (fun x => -x)
  truthy x := x != 0

/-- What technologies there are at which nodes, for which carriers. -/
def items : List (List Label) :=
  [["n", "sun", "e"], ["n", "line", "e"], ["m", "line", "e"], ["m", "bat", "e"], ["m", "fac", "e"], ["m", "fac", "h"],
   ["m", "load", "e"], ["m", "warm", "h"]]

def kindOf (t : Label) : String :=
  ([("line", "transmission"), ("bat", "storage"), ("fac", "conversion"), ("load", "demand"),
    ("warm", "demand")].lookup t).getD "supply"

/-- Choices: whether storage is cyclic, whether the time steps are a cluster, and the interest rate. -/
structure Options where
  cyclic : Bool
  cluster : Bool
  rate : Where.Val

def inputs (k : Options) (n : String) : Input :=
  if n = "base_tech" then ⟨.text, ⟨["techs"], fun c => .str (kindOf (c.headD ""))⟩, .nan⟩
  else if n = "cyclic_storage" then ⟨.boolean, scalar (.bool k.cyclic), .bool false⟩
  else if n = "include_storage" then ⟨.boolean, scalar (.bool false), .bool false⟩
  else if n = "cluster_first_timestep" then
    ⟨.boolean, ⟨["timesteps"], fun c => .bool (k.cluster && c == ["t0"])⟩, .bool false⟩
  else if n = "storage_initial" then ⟨.number, scalar (.num (1 / 8)), .num 0⟩
  else if n = "cost_interest_rate" then
    ⟨.number, ⟨["techs"], fun c => if c = ["bat"] then k.rate else .nan⟩, .num 0⟩
  else ⟨.number, scalar .nan, .num 1⟩

def results (n : String) : Option (Arr Bool) :=
  if n = "flow_out" then some ⟨flowDims, fun c => (c.take 3 ∈ items && c.getD 1 "" ∉ ["load", "warm"] : Bool) &&
    decide (c.getD 3 "" ∈ ["t0", "t1"])⟩
  else if n = "flow_in" then some ⟨flowDims, fun c => (c.take 3 ∈ items && c.getD 1 "" ≠ "sun" : Bool) &&
    decide (c.getD 3 "" ∈ ["t0", "t1"])⟩
  else if n = "storage" then some ⟨["nodes", "techs"], fun c => c == ["m", "bat"]⟩
  else if n = "cost_investment" then some ⟨["nodes", "techs", "costs"], fun c => c == ["m", "bat", "money"]⟩
  else none

def W (k : Options) : Where.Env where
  dims := ["nodes", "techs", "carriers", "timesteps", "costs"]
  coords := coords
  input := inputs k
  result := results
  config _ := none
  matrix := ⟨["nodes", "techs", "carriers"], fun c => decide (c ∈ items)⟩
  arith _ _ _ := .nan

/-! ### The hypotheses -/

theorem traverses : Traverses List.dedup := fun l => ⟨List.nodup_dedup l, fun _ => List.mem_dedup⟩

theorem data_nodup : ∀ p ∈ data, p.2.1.Nodup := by decide

theorem lookup_mem {α : Type} {n : String} {v : α} : ∀ {l : List (String × α)}, l.lookup n = some v → (n, v) ∈ l
  | (k, w) :: l, h => by
    rw [List.lookup_cons] at h
    split at h
    · rename_i hk
      cases h
      rw [beq_iff_eq.1 hk]
      exact List.mem_cons_self ..
    · exact List.mem_cons_of_mem _ (lookup_mem h)

theorem setting (k : Options) : Setting (W k) E power where
  wf := by
    refine ⟨?_, ?_, ?_⟩
    · intro n c h
      simp only [E, Option.map_eq_some_iff] at h
      obtain ⟨p, hp, rfl⟩ := h
      exact data_nodup _ (lookup_mem hp)
    · intro n g h
      simp only [E] at h
      split at h
      · cases h; decide
      · cases h
    · intro n g h
      cases h
  coords := rfl
  numbers := by
    refine ⟨fun _ _ => rfl, fun _ _ => rfl, fun _ _ => rfl, ?_, fun _ _ => rfl⟩
    intro a b hb
    simp [E, op, hb]
  time := by simp [W]
  steps := show (coords "timesteps").Nodup by decide

theorem is_data {n : String} {ds ds' : List String} {g : List Label → Rat} (h : data.lookup n = some (ds', g))
    (hd : ∀ d ∈ ds, d ∈ ds') : Is E n ds (fun ρ => g (ds'.map ρ)) := by
  refine ⟨⟨⟨ds', fun c => some (g c)⟩, none⟩, ?_, ?_, .inl hd⟩
  · simp [E, h]
  · intro ρ
    rfl

def storageData : StorageData E where
  level := _
  out := _
  inn := _
  init := _
  cap := _
  loss := _
  hours := _
  isLevel := is_data (n := "storage") rfl (by decide)
  isOut := is_data (n := "flow_out_inc_eff") rfl (by decide)
  isInn := is_data (n := "flow_in_inc_eff") rfl (by decide)
  isInit := is_data (n := "storage_initial") rfl (by decide)
  isCap := is_data (n := "storage_cap") rfl (by decide)
  isLoss := is_data (n := "storage_loss") rfl (by decide)
  isHours := is_data (n := "timestep_resolution") rfl (by decide)

def flows : Flows E where
  out := _
  inn := _
  exp := _
  unmet := _
  unused := _
  isOut := is_data (n := "flow_out") rfl (by decide)
  isInn := is_data (n := "flow_in") rfl (by decide)
  isExp := is_data (n := "flow_export") rfl (by decide)
  isUnmet := is_data (n := "unmet_demand") rfl (by decide)
  isUnused := is_data (n := "unused_supply") rfl (by decide)

def efficiencies : Efficiencies E where
  out := _
  parasitic := _
  outPerDistance := _
  inn := _
  innPerDistance := _
  distance := _
  isOut := is_data (n := "flow_out_eff") rfl (by decide)
  isParasitic := is_data (n := "flow_out_parasitic_eff") rfl (by decide)
  isOutPerDistance := is_data (n := "flow_out_eff_per_distance") rfl (by decide)
  isInn := is_data (n := "flow_in_eff") rfl (by decide)
  isInnPerDistance := is_data (n := "flow_in_eff_per_distance") rfl (by decide)
  isDistance := is_data (n := "distance") rfl (by decide)

def costData : CostData E where
  hours := _
  weight := _
  invest := _
  interest := _
  depreciation := _
  lifetime := _
  isHours := is_data (n := "timestep_resolution") rfl (by decide)
  isWeight := is_data (n := "timestep_weights") rfl (by decide)
  isInvest := is_data (n := "cost_investment") rfl (by decide)
  isInterest := is_data (n := "cost_interest_rate") rfl (by decide)
  isDepreciation := is_data (n := "cost_depreciation_rate") rfl (by decide)
  isLifetime := is_data (n := "lifetime") rfl (by decide)

def generation : Generation E where
  out := _
  exp := _
  weight := _
  isOut := is_data (n := "flow_out") rfl (by decide)
  isExp := is_data (n := "flow_export") rfl (by decide)
  isWeight := is_data (n := "timestep_weights") rfl (by decide)

/-! ### What is built -/

/-- What a computation yields, if it does not fail. -/
def got {R : Type} : Except Err (Arr (Option R)) → Arr (Option R)
  | .ok a => a
  | .error _ => scalar none

def isOk {R : Type} : Except Err R → Bool
  | .ok _ => true
  | .error _ => false

theorem got_ok {R : Type} {r : Except Err (Arr (Option R))} (h : isOk r = true) : r = .ok (got r) := by
  cases r with
  | ok a => rfl
  | error e => cases h

/-- All labels of some dimensions. -/
def rows : List String → List (List Label)
  | [] => [[]]
  | d :: ds => (coords d).flatMap (fun l => (rows ds).map (fun c => l :: c))

theorem mem_rows {k : Options} {ρ : Point} (hρ : Valid (W k) ρ) : ∀ ds : List String, ds.map ρ ∈ rows ds
  | [] => by simp [rows]
  | d :: ds => by
    simp only [List.map_cons, rows, List.mem_flatMap, List.mem_map]
    exact ⟨ρ d, hρ d, _, mem_rows hρ ds, rfl⟩

/-- Whether the numbers of a constraint satisfy it. -/
def check : Option (Cell Rat) → Bool
  | some ⟨some x, o, some y⟩ =>
    (o != "==" || decide (x = y)) && (o != "<=" || decide (x ≤ y)) && (o != ">=" || decide (y ≤ x))
  | _ => true

theorem satisfied {k : Options} {b : Arr (Option (Cell Rat))}
    (h : (rows b.dims).all (fun c => check (b.val c)) = true) {ρ : Point} (hρ : Valid (W k) ρ) : Satisfied b ρ := by
  intro x y
  have := List.all_eq_true.1 h _ (mem_rows hρ b.dims)
  refine ⟨?_, ?_, ?_⟩ <;>
  · intro hc
    rw [show b.val (b.dims.map ρ) = _ from hc] at this
    simpa [check] using this

/-- Every point of a row. -/
def point (n t c s : Label) : Point := fun d =>
  if d = "nodes" then n else if d = "techs" then t else if d = "carriers" then c else if d = "timesteps" then s
  else (coords d).headD ""

theorem valid_point {k : Options} {n t c s : Label} (hn : n ∈ coords "nodes") (ht : t ∈ coords "techs")
    (hc : c ∈ coords "carriers") (hs : s ∈ coords "timesteps") : Valid (W k) (point n t c s) := by
  intro d
  show point n t c s d ∈ coords d
  unfold point
  split
  · rename_i h; subst h; exact hn
  · split
    · rename_i h; subst h; exact ht
    · split
      · rename_i h; subst h; exact hc
      · split
        · rename_i h; subst h; exact hs
        · rename_i h1 h2 h3 h4
          unfold coords
          rw [if_neg h1, if_neg h2, if_neg h3, if_neg h4]
          split <;> simp

theorem items_coords : ∀ i ∈ items, i.getD 0 "" ∈ coords "nodes" ∧ i.getD 1 "" ∈ coords "techs" ∧
    i.getD 2 "" ∈ coords "carriers" := by decide

theorem in_model {k : Options} {ρ : Point} (h : [ρ "nodes", ρ "techs", ρ "carriers"] ∈ items)
    (ht : ρ "timesteps" ∈ coords "timesteps") : InModel (W k) ["nodes", "techs", "carriers", "timesteps"] ρ := by
  obtain ⟨h1, h2, h3⟩ := items_coords _ h
  refine ⟨by simp [W], point (ρ "nodes") (ρ "techs") (ρ "carriers") (ρ "timesteps"), valid_point h1 h2 h3 ht, ?_, ?_⟩
  · intro d hd
    simp only [List.mem_cons, List.not_mem_nil, or_false] at hd
    rcases hd with rfl | rfl | rfl | rfl <;> rfl
  · show decide ([ρ "nodes", ρ "techs", ρ "carriers"] ∈ items) = true
    exact decide_eq_true h

instance (W : Where.Env) (n : String) (ρ : Point) : Decidable (Flag W n ρ) :=
  inferInstanceAs (Decidable (_ ∨ _))

/-- Not cyclic; cyclic; a cluster. -/
def plainOptions : Options := ⟨false, false, .num (1 / 10)⟩
def cyclicOptions : Options := ⟨true, false, .num (1 / 10)⟩
def clusterOptions : Options := ⟨true, true, .num (1 / 10)⟩

def storageOf (k : Options) := got (buildConstraint (W k) E List.dedup balanceStorage)

theorem storage_plain : buildConstraint (W plainOptions) E List.dedup balanceStorage = .ok (storageOf plainOptions) :=
  got_ok (by decide +kernel)
theorem storage_cyclic :
    buildConstraint (W cyclicOptions) E List.dedup balanceStorage = .ok (storageOf cyclicOptions) :=
  got_ok (by decide +kernel)
theorem storage_cluster :
    buildConstraint (W clusterOptions) E List.dedup balanceStorage = .ok (storageOf clusterOptions) :=
  got_ok (by decide +kernel)

theorem storageInputs (k : Options) : StorageInputs (W k) := by
  intro n hn d hd
  simp only [List.mem_cons, List.not_mem_nil, or_false] at hn
  rcases hn with rfl | rfl | rfl | rfl <;> simp [W, inputs, scalar] at hd <;> subst hd <;> decide

theorem model3 {k : Options} {ρ : Point} (h : [ρ "nodes", ρ "techs", ρ "carriers"] ∈ items)
    (ht : ρ "timesteps" ∈ coords "timesteps") : InModel (W k) ["nodes", "techs", "timesteps"] ρ := by
  obtain ⟨h1, σ, h2, h3, h4⟩ := in_model (k := k) h ht
  exact ⟨fun d hd => h1 d (by simp at hd ⊢; tauto), σ, h2, fun d hd => h3 d (by simp at hd ⊢; tauto), h4⟩

/-- The battery at a time step. -/
def battery (s : Label) : Point := point "m" "bat" "e" s

theorem stores {k : Options} {s : Label} : Stores (W k) (battery s) :=
  ⟨.inr rfl, by unfold Text; simp [W, inputs, battery, point, valueOf, Arr.at, kindOf, List.lookup]⟩

theorem battery_set (s t : Label) : set (battery s) "timesteps" t = battery t := by
  funext d
  unfold Expr.set battery point
  by_cases h : d = "timesteps"
  · subst h; rfl
  · simp [h]

theorem battery_valid {k : Options} {s : Label} (hs : s ∈ coords "timesteps") : Valid (W k) (battery s) :=
  valid_point (by decide) (by decide) (by decide) hs

/-- C61: the battery starts with the initial level, 1, and charges 5. -/
example : (storageOf plainOptions).at (battery "t0") = some ⟨some 6, "==", some (1 + 5)⟩ := by
  obtain ⟨h1, h2⟩ := C61_rule (setting plainOptions) storageData (storageInputs _) traverses storage_plain
    (battery_valid (s := "t0") (by decide))
  have := h2 (h1.2 ⟨model3 (by decide) (by decide), stores⟩) 1 (.inl ⟨rfl, by decide, by decide +kernel⟩)
  have e1 : storageData.level (battery "t0") = 6 := by decide +kernel
  have e2 : storageData.net (battery "t0") = 5 := by decide +kernel
  rw [this, e1, e2]

theorem all_ok {k : Options} (h : (rows (storageOf k).dims).all (fun c => check ((storageOf k).val c)) = true) :
    ∀ t ∈ (W k).coords "timesteps", Satisfied (storageOf k) (set (battery "t0") "timesteps" t) ∧
      InModel (W k) ["nodes", "techs", "timesteps"] (set (battery "t0") "timesteps" t) ∧
      Stores (W k) (set (battery "t0") "timesteps" t) := by
  intro t ht
  rw [battery_set]
  exact ⟨satisfied h (battery_valid (k := k) ht), model3 (ρ := battery t) (show ["m", "bat", "e"] ∈ items by decide) ht, stores⟩

/-- C62: 2 - 1 at the end, from 1 at the start, 5 charged, 1 discharged, and 3 and 1 lost. -/
example : (2 : Rat) - 1 = 1 + (5 - 1) - (3 + 1) := by
  have := C62_horizon (setting plainOptions) storageData (storageInputs _) traverses storage_plain
    (battery_valid (s := "t0") (by decide)) (fun t => by rw [battery_set]; rfl) (x := "t0") (y := "t1") rfl rfl
    (all_ok (by decide +kernel)) (by
      intro t ht
      simp only [W, coords] at ht
      simp at ht
      rcases ht with rfl | rfl <;> decide) (by decide)
  have e : storageData.level (set (battery "t0") "timesteps" "t1") -
    storageData.lost power (set (battery "t0") "timesteps" "t1") = 2 - 1 := by decide +kernel
  rw [e] at this
  rw [this]
  decide +kernel

example : sumOver E "timesteps" storageData.net (battery "t0") =
    sumOver E "timesteps" (storageData.lost power) (battery "t0") :=
  C62_cyclic (setting cyclicOptions) storageData (storageInputs _) traverses storage_cyclic
    (battery_valid (s := "t0") (by decide)) (fun t => by rw [battery_set]; rfl) (x := "t0") rfl
    (all_ok (by decide +kernel)) (by
      intro t ht
      simp only [W, coords] at ht
      simp at ht
      rcases ht with rfl | rfl <;> decide) (by decide)

example : sumSteps ["t0", "t1"] storageData.net (battery "t0") =
    sumSteps ["t0", "t1"] (storageData.lost power) (battery "t0") :=
  C62_cluster (setting clusterOptions) storageData (storageInputs _) traverses storage_cluster
    (battery_valid (s := "t0") (by decide)) (fun t => by rw [battery_set]; rfl) (x := "t0") (y := "t1") (B := ["t1"])
    (pre := []) (post := []) rfl rfl
    (fun t ht => all_ok (k := clusterOptions) (by decide +kernel) t ht) ⟨by decide, by decide⟩ rfl rfl
    (fun _ => by decide)

def initialOf (k : Options) := got (buildConstraint (W k) E List.dedup setStorageInitial)
theorem initial_cyclic :
    buildConstraint (W cyclicOptions) E List.dedup setStorageInitial = .ok (initialOf cyclicOptions) :=
  got_ok (by decide +kernel)

example : storageData.level (battery "t1") - storageData.lost power (battery "t1") = 1 / 8 * 8 := by
  have := C62_initial (setting cyclicOptions) storageData traverses initial_cyclic
    (battery_valid (s := "t0") (by decide)) (x := "t0") (y := "t1") rfl rfl (fun t => by rw [battery_set]; rfl)
    (by decide) ⟨battery "t0", battery_valid (by decide), fun _ _ => rfl, by decide, ⟨_, rfl, by decide⟩,
      .inr ⟨by decide, by decide⟩, by decide⟩
    (satisfied (k := cyclicOptions) (by decide +kernel) (battery_valid (by decide)))
  have h := this.1
  rw [battery_set] at h
  rw [h]
  rfl

/-! ### Balances -/

def systemOf := got (buildConstraint (W plainOptions) E List.dedup systemBalance)
def transmissionOf := got (buildConstraint (W plainOptions) E List.dedup balanceTransmission)
def conversionOf := got (buildConstraint (W plainOptions) E List.dedup balanceConversion)
def outflowOf := got (buildExpression (W plainOptions) E List.dedup flowOutIncEff)
def inflowOf := got (buildExpression (W plainOptions) E List.dedup flowInIncEff)

theorem system_built : buildConstraint (W plainOptions) E List.dedup systemBalance = .ok systemOf :=
  got_ok (by decide +kernel)
theorem transmission_built : buildConstraint (W plainOptions) E List.dedup balanceTransmission = .ok transmissionOf :=
  got_ok (by decide +kernel)
theorem conversion_built : buildConstraint (W plainOptions) E List.dedup balanceConversion = .ok conversionOf :=
  got_ok (by decide +kernel)
theorem outflow_built : buildExpression (W plainOptions) E List.dedup flowOutIncEff = .ok outflowOf :=
  got_ok (by decide +kernel)
theorem inflow_built : buildExpression (W plainOptions) E List.dedup flowInIncEff = .ok inflowOf :=
  got_ok (by decide +kernel)

theorem table_ne {l : List (List Label × Rat)} {c : List Label} (h : table l c ≠ 0) : c ∈ l.map Prod.fst := by
  unfold table at h
  cases hl : l.lookup c with
  | none => rw [hl] at h; exact absurd rfl h
  | some v =>
    clear h
    induction l with
    | nil => cases hl
    | cons p l ih =>
      rw [List.lookup_cons] at hl
      split at hl
      · rename_i hk
        rw [beq_iff_eq.1 hk]
        exact List.mem_cons_self ..
      · exact List.mem_cons_of_mem _ (ih hl)

theorem table_item {l : List (List Label × Rat)} {n t c s : Label} (h : table l [n, t, c, s] ≠ 0)
    (hl : ∀ i ∈ l.map Prod.fst, i.take 3 ∈ items ∧ i.getD 3 "" ∈ coords "timesteps") :
    [n, t, c] ∈ items ∧ s ∈ coords "timesteps" := hl _ (table_ne h)

theorem nonneg_table {l : List (List Label × Rat)} (h : ∀ p ∈ l, 0 ≤ p.2) (c : List Label) : 0 ≤ table l c := by
  unfold table
  induction l with
  | nil => exact le_rfl
  | cons p l ih =>
    rw [List.lookup_cons]
    split
    · exact h p (List.mem_cons_self ..)
    · exact ih (fun q hq => h q (List.mem_cons_of_mem _ hq))

theorem shrinks : Shrinks power := by
  intro a d h0 h1 _
  exact ⟨pow_pos h0 _, pow_le_one₀ h0.le h1⟩

theorem proper : Proper efficiencies := by
  intro ρ
  refine ⟨?_, ?_⟩
  · intro f hf
    simp only [List.mem_cons, List.not_mem_nil, or_false] at hf
    rcases hf with rfl | rfl | rfl | rfl | rfl
    · show 0 < (if _ then (1 / 2 : Rat) else 1) ∧ (if _ then (1 / 2 : Rat) else 1) ≤ 1
      split <;> decide +kernel
    · show (0 : Rat) < 1 ∧ (1 : Rat) ≤ 1
      decide +kernel
    · show (0 : Rat) < 1 ∧ (1 : Rat) ≤ 1
      decide +kernel
    · show 0 < (if _ then (1 / 2 : Rat) else 1) ∧ (if _ then (1 / 2 : Rat) else 1) ≤ 1
      split <;> decide +kernel
    · show (0 : Rat) < 1 ∧ (1 : Rat) ≤ 1
      decide +kernel
  · show (0 : Rat) ≤ 1
    decide +kernel

theorem holds {n : String} {g : List Label → Rat} {b : Arr (Option Rat)}
    (hn : data.lookup n = some (flowDims, g)) (hd : b.dims = flowDims)
    (h : (rows flowDims).all (fun c => decide (g c = (b.val c).getD 0)) = true) :
    Holds (W plainOptions) E n ["nodes", "carriers"] b (fun ρ => g (flowDims.map ρ)) := by
  refine ⟨is_data hn (by decide), ?_⟩
  intro ρ hρ
  have := List.all_eq_true.1 h _ (mem_rows hρ flowDims)
  unfold Arr.at
  rw [hd]
  exact of_decide_eq_true this

/-- Every item with outflow is one where the variable exists. -/
theorem exists_flow {ρ : Point} {n : String} {P : Label → Bool}
    (hr : results n = some ⟨flowDims, fun c => (decide (c.take 3 ∈ items) && P (c.getD 1 "")) &&
      decide (c.getD 3 "" ∈ ["t0", "t1"])⟩)
    (h : [ρ "nodes", ρ "techs", ρ "carriers"] ∈ items ∧ ρ "timesteps" ∈ coords "timesteps") (hp : P (ρ "techs") = true) :
    Exists (W plainOptions) n ρ := by
  refine ⟨_, hr, ?_⟩
  show ((decide ([ρ "nodes", ρ "techs", ρ "carriers"] ∈ items) && P (ρ "techs")) &&
    decide (ρ "timesteps" ∈ ["t0", "t1"])) = true
  rw [decide_eq_true h.1, hp, decide_eq_true (show ρ "timesteps" ∈ ["t0", "t1"] from h.2)]
  rfl

def lossy : Lossy (W plainOptions) E power List.dedup flows efficiencies where
  outInc := _
  innInc := _
  bo := outflowOf
  bi := inflowOf
  buildOut := outflow_built
  buildInn := inflow_built
  holdsOut := holds (n := "flow_out_inc_eff") rfl (by decide +kernel) (by decide +kernel)
  holdsInn := holds (n := "flow_in_inc_eff") rfl (by decide +kernel) (by decide +kernel)
  kinds := by
    intro n hn d hd
    rw [List.mem_singleton] at hn
    subst hn
    exact hd
  resOut := by
    intro a ha d hd
    cases ha
    exact hd
  resInn := by
    intro a ha d hd
    cases ha
    exact hd
  onlyOut := by
    intro ρ h
    have h' := table_item h (by decide)
    refine ⟨in_model h'.1 h'.2, exists_flow (P := fun t => decide (t ∉ ["load", "warm"])) rfl h' ?_⟩
    have hk : ∀ i ∈ ([["n", "sun", "e", "t0"], ["n", "sun", "e", "t1"], ["m", "line", "e", "t0"],
      ["m", "line", "e", "t1"], ["m", "bat", "e", "t1"], ["m", "fac", "h", "t0"], ["m", "fac", "h", "t1"]] :
        List (List Label)), i.getD 1 "" ∉ ["load", "warm"] := by decide
    exact decide_eq_true (hk _ (table_ne h))
  onlyInn := by
    intro ρ h
    have h' := table_item h (by decide)
    refine ⟨in_model h'.1 h'.2, exists_flow (P := fun t => decide (t ≠ "sun")) rfl h' ?_⟩
    have hk : ∀ i ∈ ([["n", "line", "e", "t0"], ["n", "line", "e", "t1"], ["m", "bat", "e", "t0"],
      ["m", "fac", "e", "t0"], ["m", "fac", "e", "t1"], ["m", "load", "e", "t0"], ["m", "load", "e", "t1"],
      ["m", "warm", "h", "t0"], ["m", "warm", "h", "t1"]] : List (List Label)), i.getD 1 "" ≠ "sun" := by decide
    exact decide_eq_true (hk _ (table_ne h))
  outNonneg := fun ρ => nonneg_table (by decide +kernel) _
  innNonneg := fun ρ => nonneg_table (by decide +kernel) _
  proper := proper
  shrinks := shrinks

theorem text_iff {k : Options} {ρ : Point} {s : String} : Text (W k) "base_tech" s ρ ↔ kindOf (ρ "techs") = s := by
  show Where.Val.str (kindOf (ρ "techs")) = .str s ↔ _
  simp

theorem kinds (ρ : Point) : Text (W plainOptions) "base_tech" "supply" ρ ∨ Text (W plainOptions) "base_tech" "demand" ρ ∨
    Text (W plainOptions) "base_tech" "transmission" ρ ∨ Text (W plainOptions) "base_tech" "conversion" ρ ∨
    Text (W plainOptions) "base_tech" "storage" ρ := by
  simp only [text_iff]
  unfold kindOf
  simp only [List.lookup_cons]
  repeat' split
  all_goals simp

/-- Supply takes nothing in, demand gives nothing out, and all technologies are of a kind. -/
theorem no_supply_in (ρ : Point) (h : Text (W plainOptions) "base_tech" "supply" ρ) : flows.inn ρ = 0 := by
  rw [text_iff] at h
  by_contra hne
  have hk : ∀ i ∈ ([["n", "line", "e", "t0"], ["n", "line", "e", "t1"], ["m", "bat", "e", "t0"],
      ["m", "fac", "e", "t0"], ["m", "fac", "e", "t1"], ["m", "load", "e", "t0"], ["m", "load", "e", "t1"],
      ["m", "warm", "h", "t0"], ["m", "warm", "h", "t1"]] : List (List Label)), kindOf (i.getD 1 "") ≠ "supply" := by
    decide
  exact hk _ (table_ne hne) h

theorem no_demand_out (ρ : Point) (h : Text (W plainOptions) "base_tech" "demand" ρ) : flows.out ρ = 0 := by
  rw [text_iff] at h
  by_contra hne
  have hk : ∀ i ∈ ([["n", "sun", "e", "t0"], ["n", "sun", "e", "t1"], ["m", "line", "e", "t0"],
      ["m", "line", "e", "t1"], ["m", "bat", "e", "t1"], ["m", "fac", "h", "t0"], ["m", "fac", "h", "t1"]] :
        List (List Label)), kindOf (i.getD 1 "") ≠ "demand" := by decide
  exact hk _ (table_ne hne) h

theorem within_storage : Within (W plainOptions) ["nodes", "techs", "timesteps"] ["include_storage"] := by
  intro n hn d hd
  rw [List.mem_singleton] at hn
  subst hn
  cases hd

/-- C63: at the first time step 4 are used and 30 are supplied; 10 go into the battery, 16 are lost. -/
example : everywhere E (ofKind (W plainOptions) "demand" flows.inn) (battery "t0") +
      everywhere E flows.exp (battery "t0") - sumOver E "nodes" (sumOver E "carriers" flows.unused) (battery "t0") ≤
    everywhere E (ofKind (W plainOptions) "supply" flows.out) (battery "t0") +
      sumOver E "nodes" (sumOver E "carriers" flows.unmet) (battery "t0") +
      (everywhere E (ofKind (W plainOptions) "storage" flows.out) (battery "t0") -
        everywhere E (ofKind (W plainOptions) "storage" flows.inn) (battery "t0")) :=
  C63_no_gain (setting plainOptions) flows efficiencies traverses lossy system_built transmission_built
    conversion_built within_storage (fun ρ h => absurd rfl h)
    (by
      intro f hf ρ h
      simp only [List.mem_cons, List.not_mem_nil, or_false] at hf
      rcases hf with rfl | rfl <;> exact absurd rfl h)
    kinds no_supply_in no_demand_out (fun _ _ => by unfold Flag; simp [W, inputs, valueOf, scalar, Arr.at])
    (fun ρ hρ => ⟨satisfied (by decide +kernel) hρ, satisfied (by decide +kernel) hρ,
      satisfied (by decide +kernel) hρ⟩)
    (battery_valid (by decide))

example : everywhere E (ofKind (W plainOptions) "demand" flows.inn) (battery "t0") = 4 ∧
    everywhere E (ofKind (W plainOptions) "supply" flows.out) (battery "t0") = 30 ∧
    everywhere E (ofKind (W plainOptions) "storage" flows.inn) (battery "t0") = 10 := by decide +kernel

/-! ### Costs -/

def costOf := got (buildExpression (W plainOptions) E List.dedup costInvestmentAnnualised)
theorem cost_built : buildExpression (W plainOptions) E List.dedup costInvestmentAnnualised = .ok costOf :=
  got_ok (by decide +kernel)

theorem costInputs (k : Options) : CostInputs (W k) := by
  refine ⟨?_, ?_⟩
  · intro n hn d hd
    simp only [List.mem_cons, List.not_mem_nil, or_false] at hn
    rcases hn with rfl | rfl <;> simp [W, inputs, scalar] at hd
    subst hd
    decide
  · intro a ha d hd
    cases ha
    exact hd

theorem model_cost {k : Options} : InModel (W k) ["nodes", "techs", "costs"] (battery "t0") := by
  refine ⟨by simp [W], battery "t0", battery_valid (by decide), fun _ _ => rfl, show decide (["m", "bat", "e"] ∈ items) = true by decide⟩

theorem not_given {k : Options} : ¬ GivenAt (W k) "cost_depreciation_rate" (battery "t0") := by
  rintro (⟨h, _⟩ | ⟨_, h, _⟩)
  · cases h
  · exact h rfl

/-- C64: 3 hours of a year, at 10 % over two years (121/210 of the investment each). -/
example : ∃ a, Repays a (costData.interest (battery "t0")) 2 ∧
    costOf.at (battery "t0") = some (costData.years (battery "t0") * a * costData.invest (battery "t0")) :=
  C64_repays (setting plainOptions) (costInputs _) costData (by decide) traverses cost_built
    (battery_valid (by decide)) model_cost ⟨_, rfl, by decide⟩ not_given rfl (.inr ⟨1 / 10, rfl, by decide +kernel⟩)
    (fun q h => by
      have h' : Where.Val.num (1 / 10) = .num q := h
      cases h'
      decide +kernel)
    (by decide) rfl (fun _ => rfl)
example : costOf.at (battery "t0") = some (3 / 8760 * (121 / 210) * 100) := by decide +kernel

/-- C64 fails for a negative rate: the investment is free. -/
example : ∃ (k : Options) (b : Arr (Option Rat)), k.rate = .num (-1 / 10) ∧
    buildExpression (W k) E List.dedup costInvestmentAnnualised = .ok b ∧ b.at (battery "t0") = none := by
  have hb : buildExpression (W ⟨false, false, .num (-1 / 10)⟩) E List.dedup costInvestmentAnnualised = .ok
      (got (buildExpression (W ⟨false, false, .num (-1 / 10)⟩) E List.dedup costInvestmentAnnualised)) :=
    got_ok (by decide +kernel)
  exact ⟨_, _, rfl, hb, C64_negative (setting _) (costInputs _) traverses hb (battery_valid (by decide)) (by decide)
    not_given rfl (by decide +kernel)⟩

/-- C64 fails for an infinite rate: nothing can be built. -/
example (b : Arr (Option Rat)) :
    buildExpression (W ⟨false, false, .posInf⟩) E List.dedup costInvestmentAnnualised ≠ .ok b :=
  C64_infinite (setting _) (costInputs _) traverses (battery_valid (s := "t0") (by decide)) model_cost
    ⟨_, rfl, by decide⟩ (by decide) not_given rfl b

/-! ### Total generation -/

def totalOf := got (buildExpression (W plainOptions) E List.dedup totalGeneration)
theorem total_built : buildExpression (W plainOptions) E List.dedup totalGeneration = .ok totalOf :=
  got_ok (by decide +kernel)

/-- What `sun` generates. -/
def sunny : Point := point "n" "sun" "e" "t0"

theorem sun_valid {k : Options} : Valid (W k) sunny :=
  valid_point (by decide) (by decide) (by decide) (by decide)

theorem sun_generates : Generates (W plainOptions) sunny :=
  ⟨by decide, sunny, sun_valid, fun _ _ => rfl, by decide, ⟨_, rfl, by decide⟩, by rw [text_iff]; decide⟩

/-- C65 fails: the second time step stands for two, so that `sun` gives 30 + 2 * 6 in the period the model stands
for, but its total generation is 36. -/
theorem C65_weights : totalOf.at sunny = some 36 ∧ generation.represented sunny = 42 := by
  rw [(C65_value (setting plainOptions) generation (by decide) traverses total_built sun_valid).2 sun_generates]
  decide +kernel

end Demo
end BaseMath
end Calliope
