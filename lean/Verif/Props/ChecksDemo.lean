import Verif.Props.Checks

/-!
Models that meet the hypotheses of the theorems about checks, and models that the checks miss.
-/

namespace Calliope
namespace BaseMath
namespace ChecksDemo

open Grid Infix Expr Expand Build Where

/-- A value of an input at each node. -/
def perNode (f : String → Where.Val) : Arr Where.Val := ⟨["nodes"], fun c => match c with
  | [l] => f l
  | _ => .nan⟩

/-- A value of an input for each technology. -/
def perTech (f : String → Where.Val) : Arr Where.Val := ⟨["techs"], fun c => match c with
  | [l] => f l
  | _ => .nan⟩

/-- Nodes `a`, `b` and `c`; a solar plant and a battery at each of them, one carrier, two time steps. -/
def model (data : String → Option Where.Input) : Where.Env where
  dims := ["nodes", "techs", "carriers", "timesteps", "costs"]
  coords := fun d => if d = "nodes" then ["a", "b", "c"] else if d = "techs" then ["pv", "bat"]
    else if d = "carriers" then ["e"] else if d = "timesteps" then ["t1", "t2"] else ["money"]
  input := fun n => (data n).getD ⟨.number, scalar .nan, .nan⟩
  result := fun _ => none
  config := fun _ => none
  matrix := ⟨["nodes", "techs", "carriers"], fun _ => true⟩
  arith := fun _ x _ => x

def number (a : Arr Where.Val) (default : Where.Val := .nan) : Option Where.Input := some ⟨.number, a, default⟩
def word (a : Arr Where.Val) : Option Where.Input := some ⟨.text, a, .nan⟩
def bool (a : Arr Where.Val) (default : Bool) : Option Where.Input := some ⟨.boolean, a, .bool default⟩

/-- The inputs of a plain model: a battery that starts half full, paid for its capacity, exports at one node, and a
price on inflow that is not used for the solar plant. -/
def plain : String → Option Where.Input
  | "base_tech" => word (perTech (fun t => if t = "pv" then .str "supply" else .str "storage"))
  | "cost_flow_cap" => number (perTech (fun t => if t = "bat" then .num (-2) else .nan)) (.num 0)
  | "flow_cap_max" => number (perTech (fun t => if t = "bat" then .num 10 else .nan)) .posInf
  | "storage_initial" => number (perTech (fun t => if t = "bat" then .num (1/2) else .nan)) (.num 0)
  | "cost_flow_in" => number (perTech (fun t => if t = "pv" then .num 1 else .nan)) (.num 0)
  | "carrier_export" => bool (perTech (fun t => .bool (t = "pv"))) false
  | "carrier_out" => bool (perNode (fun n => .bool (n = "b"))) false
  | "latitude" => number (perNode (fun n => if n = "c" then .nan else .num 50))
  | "longitude" => number (perNode (fun _ => .num 5))
  | "cyclic_storage" => bool (perTech (fun _ => .bool false)) true
  | "integer_dispatch" => bool (perTech (fun t => .bool (t = "bat"))) false
  | "cap_method" => word (perTech (fun t => if t = "bat" then .str "integer" else .str "continuous"))
  | "flow_cap_per_unit" => number (perTech (fun t => if t = "pv" then .num 2 else .nan))
  | _ => none

def item (n t : String) : Point := fun d => if d = "nodes" then n else if d = "techs" then t
  else if d = "carriers" then "e" else if d = "timesteps" then "t1" else "money"

theorem item_ok {data : String → Option Where.Input} {n t : String} (hn : n ∈ ["a", "b", "c"]) (ht : t ∈ ["pv", "bat"]) :
    Item (model data) (item n t) := by
  refine ⟨fun d => ?_, rfl⟩
  unfold model item
  simp only []
  split_ifs <;> simp_all

/-- The messages of the plain model: the price on inflow of a supply technology; it is built. -/
theorem plain_passes : checkInputs (model plain) (baseChecks ++ milpChecks ++ operateChecks) =
    .passed ["`cost_flow_in` does not apply to `supply` technologies. Use `cost_source_use` instead."] := by
  have h : runChecks (model plain) (baseChecks ++ milpChecks ++ operateChecks) =
    .ok (["`cost_flow_in` does not apply to `supply` technologies. Use `cost_source_use` instead."], []) := by
    decide +kernel
  unfold checkInputs
  rw [h]
  simp [sortStrings]

def isPassed : Except Err (List String × List String) → Bool
  | .ok (_, []) => true
  | _ => false

theorem built {cs : List Check} (h : isPassed (runChecks (model plain) cs) = true) :
    ∃ ws, checkInputs (model plain) cs = .passed ws := by
  unfold checkInputs
  cases hr : runChecks (model plain) cs with
  | error x => rw [hr] at h; cases h
  | ok r =>
    obtain ⟨ws, es⟩ := r
    rw [hr] at h
    cases es with
    | nil => exact ⟨_, rfl⟩
    | cons e es => cases h

def evaluated : Except Err (List String × List String) → Bool
  | .ok _ => true
  | .error _ => false

/-- `C87_passes` and `C87_raises`: the plain model is built, and with an initial level of 3/2 it is not. -/
example : ∃ ws, checkInputs (model plain) baseChecks = .passed ws :=
  built (by decide +kernel)

/-- The plain model with another input. -/
def with' (n : String) (i : Option Where.Input) : String → Option Where.Input := fun m => if m = n then i else plain m

theorem over : ∃ ws es, checkInputs (model (with' "storage_initial" (number (perTech (fun _ => .num (3/2)))))) baseChecks
    = .raised ws es := by
  have he : Evaluates (model (with' "storage_initial" (number (perTech (fun _ => .num (3/2)))))) baseChecks := by
    rw [runChecks_ok]
    cases h : runChecks (model (with' "storage_initial" (number (perTech (fun _ => .num (3/2)))))) baseChecks with
    | ok r => exact ⟨r, rfl⟩
    | error x =>
      have h' : evaluated (runChecks (model (with' "storage_initial" (number (perTech (fun _ => .num (3/2))))))
        baseChecks) = true := by decide +kernel
      rw [h] at h'
      cases h'
  refine (C87_raises (item_ok (n := "a") (t := "bat") (by simp) (by simp)).1 he).2
    ⟨storageInitialMax, by simp [baseChecks], rfl, rfl, item "a" "bat", item_ok (by simp) (by simp), ?_⟩
  simp only [storageInitialMax, truth_both, truth_given', truth_either, truth_below, truth_above]
  refine ⟨.inr ⟨by decide, by decide, by decide, by decide⟩, .inr ?_⟩
  exact .num (by decide +kernel)

/-- `C87_errors`, `C87_warnings`. -/
example : ∃ ws es, Lists (model (with' "storage_initial" (number (perTech (fun _ => .num (3/2)))))) baseChecks true es ∧
    Lists (model (with' "storage_initial" (number (perTech (fun _ => .num (3/2)))))) baseChecks false ws := by
  obtain ⟨ws, es, h⟩ := over
  exact ⟨ws, es, C87_errors (item_ok (n := "a") (t := "bat") (by simp) (by simp)).1 h⟩

example : Lists (model plain) (baseChecks ++ milpChecks ++ operateChecks) false
    ["`cost_flow_in` does not apply to `supply` technologies. Use `cost_source_use` instead."] :=
  C87_warnings (item_ok (n := "a") (t := "bat") (by simp) (by simp)).1 plain_passes

/-- `C87_base_tech`, `C87_distance`, `C87_negative_cost`, `C87_finite`, `C87_initial_partial`, `C87_export` and
`C87_location_partial`. -/
example : GivenAt (model plain) "base_tech" (item "a" "pv") ∧ ¬ GivenAt (model plain) "distance" (item "a" "pv") ∧
    GivenAt (model plain) "flow_cap_max" (item "a" "bat") ∧
    (0 ≤ (1/2 : Rat) ∧ (1/2 : Rat) ≤ 1) ∧
    (∃ σ, Elsewhere (model plain) (item "a" "pv") σ ∧ GivenAt (model plain) "carrier_out" σ) ∧
    (GivenAt (model plain) "latitude" (item "c" "pv") ∨ GivenAt (model plain) "longitude" (item "c" "pv")) := by
  obtain ⟨ws, h⟩ := built (cs := baseChecks) (by decide +kernel)
  refine ⟨C87_base_tech h (item_ok (by simp) (by simp)),
    C87_distance h (item_ok (by simp) (by simp)) (by unfold Text; decide +kernel) (by simp),
    C87_negative_cost h (item_ok (by simp) (by simp)) (cost := "cost_flow_cap") (by simp) (q := -2) (by decide +kernel)
      (by decide +kernel),
    C87_initial_partial h (ρ := item "a" "bat") (item_ok (by simp) (by simp)) rfl (by decide +kernel),
    C87_export h (item_ok (by simp) (by simp)) (.inl ⟨rfl, by decide +kernel⟩),
    C87_location_partial h (σ := item "a" "pv") (item_ok (by simp) (by simp))
      ⟨(item_ok (by simp) (by simp)).1, ?_⟩ (.inl (.inr ⟨by decide, by decide, by decide, by decide⟩))⟩
  intro d hd
  simp [item, hd]

/-- `C87_units` and `C87_operate`. -/
example : Text (model plain) "cap_method" "integer" (item "a" "bat") ∧
    ¬ GivenAt (model plain) "flow_cap_max" (item "a" "pv") := by
  obtain ⟨ws, h⟩ := built (cs := baseChecks ++ milpChecks) (by decide +kernel)
  exact ⟨(C87_units h (item_ok (by simp) (by simp))).1 (by unfold Flag; decide +kernel),
    ((C87_units h (item_ok (by simp) (by simp))).2.1 (.inr ⟨by decide, by decide, by decide, by decide⟩)).1⟩

example : ¬ Flag (model plain) "cyclic_storage" (item "a" "bat") := by
  obtain ⟨ws, h⟩ := built (cs := baseChecks ++ operateChecks) (by decide +kernel)
  exact C87_operate h (item_ok (by simp) (by simp)) (.inl (by unfold Text; decide +kernel))

/-- `C87_warned` and `C87_distance_units`: the plain model warns of the price on inflow and of nothing else. -/
example : ∃ ws, checkInputs (model plain) baseChecks = .passed ws ∧
    "`cost_flow_in` does not apply to `supply` technologies. Use `cost_source_use` instead." ∈ ws := by
  obtain ⟨ws, h⟩ := built (cs := baseChecks) (by decide +kernel)
  exact ⟨ws, h, (C87_warned (item_ok (n := "a") (t := "pv") (by simp) (by simp)).1 h _).2 (.inl ⟨rfl, item "a" "pv",
    item_ok (by simp) (by simp), by unfold Text; decide +kernel, .inr ⟨by decide, by decide, by decide, by decide⟩⟩)⟩

example : ¬ GivenAt (model plain) "cost_purchase_per_distance" (item "a" "bat") := by
  obtain ⟨ws, h⟩ := built (cs := baseChecks ++ milpChecks) (by decide +kernel)
  intro hg
  have := C87_distance_units h (item_ok (n := "a") (t := "bat") (by simp) (by simp)) hg
  revert this
  unfold Text
  decide +kernel

/-- The check of locations misses node `c`, which has a longitude and no latitude. -/
theorem C87_half_location : (∃ ws, checkInputs (model plain) baseChecks = .passed ws) ∧
    GivenAt (model plain) "latitude" (item "a" "pv") ∧ ¬ GivenAt (model plain) "latitude" (item "c" "pv") := by
  refine ⟨built (by decide +kernel), .inr ⟨by decide, by decide, by decide, by decide⟩, ?_⟩
  rintro (⟨h, _⟩ | ⟨_, h, _⟩)
  · cases h
  · exact h rfl

/-- An infinite initial level of storage is built. -/
theorem C87_full_of_storage : runChecks (model (with' "storage_initial" (number (perTech (fun _ => .posInf)))))
      [storageInitialMax] = .ok ([], []) := by
  decide +kernel

/-- Only solar plants, clustered days, and nothing said about cyclic storage: the model is not built. -/
theorem C87_no_storage (ws : List String) :
    checkInputs (model (fun n => if n = "base_tech" then word (scalar (.str "supply"))
      else if n = "cyclic_storage" then some (addInput ⟨true, .boolean, .bool true⟩ none)
      else if n = "lookup_cluster_last_timestep" then word (scalar (.str "t2")) else none)) baseChecks ≠ .passed ws :=
  C87_clustered rfl (item_ok (n := "a") (t := "pv") (by simp) (by simp))
    (.inr ⟨by decide, by decide, by decide, by decide⟩) ws

end ChecksDemo
end BaseMath
end Calliope
