import Verif.Proofs.Checks
import Verif.Model.CheckList

/-!
# C87: checks of the input data

Building a backend stops if and only if the condition of a check that is to raise an error is true for a technology at a
node, and the messages of all checks are reported, errors and warnings apart.  Of a model that was built, this tells what
its inputs are like.
-/

namespace Calliope
namespace BaseMath

open Grid Infix Expr Expand Build Where

section
variable {W : Where.Env} {cs : List Check} {ρ₀ : Point}

/-- The build stops with an error if and only if the condition of an active check that raises is true somewhere in the
model. -/
theorem C87_raises (hρ₀ : Valid W ρ₀) (he : Evaluates W cs) :
    (∃ ws es, checkInputs W cs = .raised ws es) ↔
      ∃ c ∈ cs, c.active = true ∧ c.raises = true ∧ Reported W c := by
  obtain ⟨⟨ws, es⟩, hr⟩ := runChecks_ok.1 he
  have hm := fun m => (runChecks_mem hρ₀ hr m).2
  unfold checkInputs
  rw [hr]
  cases es with
  | nil =>
    simp only [reduceCtorEq, exists_false, false_iff]
    rintro ⟨c, hc, ha, hc', h⟩
    exact absurd ((hm c.message).2 ⟨c, hc, ha, hc', rfl, h⟩) (by simp)
  | cons e es =>
    simp only [Checked.raised.injEq]
    refine ⟨fun _ => ?_, fun _ => ⟨_, _, rfl, rfl⟩⟩
    obtain ⟨c, hc, ha, hc', _, h⟩ := (hm e).1 List.mem_cons_self
    exact ⟨c, hc, ha, hc', h⟩

/-- The build goes on if and only if no active check that raises is true anywhere in the model. -/
theorem C87_passes (hρ₀ : Valid W ρ₀) (he : Evaluates W cs) :
    (∃ ws, checkInputs W cs = .passed ws) ↔
      ∀ c ∈ cs, c.active = true → c.raises = true → ∀ ρ, Item W ρ → ¬ Truth W ρ c.cond := by
  have h1 := C87_raises hρ₀ he
  obtain ⟨⟨ws, es⟩, hr⟩ := runChecks_ok.1 he
  have hsplit : (∃ ws, checkInputs W cs = .passed ws) ↔ ¬ ∃ ws es, checkInputs W cs = .raised ws es := by
    unfold checkInputs
    rw [hr]
    cases es <;> simp
  rw [hsplit, h1]
  constructor
  · intro h c hc ha hr ρ hρ ht
    exact h ⟨c, hc, ha, hr, ρ, hρ, ht⟩
  · rintro h ⟨c, hc, ha, hr, ρ, hρ, ht⟩
    exact h c hc ha hr ρ hρ ht

/-- The error has exactly the messages of the checks that raise and are true somewhere, each once and in alphabetical
order; the warning before it has exactly the messages of the other checks that are true somewhere. -/
theorem C87_errors (hρ₀ : Valid W ρ₀) {ws es : List String} (h : checkInputs W cs = .raised ws es) :
    Lists W cs true es ∧ Lists W cs false ws := by
  unfold checkInputs at h
  cases hr : runChecks W cs with
  | error x => rw [hr] at h; cases h
  | ok r =>
    obtain ⟨ws', es'⟩ := r
    rw [hr] at h
    have hm := runChecks_mem hρ₀ hr
    cases es' with
    | nil => cases h
    | cons e es' =>
      simp only [Checked.raised.injEq] at h
      rw [← h.1, ← h.2]
      exact ⟨⟨fun m => (sortStrings_mem _ m).trans (hm m).2, sortStrings_nodup _, sortStrings_sorted _⟩,
        ⟨fun m => (sortStrings_mem _ m).trans (hm m).1, sortStrings_nodup _, sortStrings_sorted _⟩⟩

/-- If the build goes on, the warning has exactly the messages of the checks that warn and are true somewhere. -/
theorem C87_warnings (hρ₀ : Valid W ρ₀) {ws : List String} (h : checkInputs W cs = .passed ws) :
    Lists W cs false ws := by
  unfold checkInputs at h
  cases hr : runChecks W cs with
  | error x => rw [hr] at h; cases h
  | ok r =>
    obtain ⟨ws', es'⟩ := r
    rw [hr] at h
    have hm := runChecks_mem hρ₀ hr
    cases es' with
    | nil =>
      simp only [Checked.passed.injEq] at h
      rw [← h]
      exact ⟨fun m => (sortStrings_mem _ m).trans (hm m).1, sortStrings_nodup _, sortStrings_sorted _⟩
    | cons e es' => cases h

/-- Checks that are not active do nothing. -/
theorem C87_inactive (cs : List Check) : checkInputs W cs = checkInputs W (cs.filter (·.active)) := by
  have : ∀ cs : List Check, runChecks W cs = runChecks W (cs.filter (·.active)) := by
    intro cs
    induction cs with
    | nil => rfl
    | cons c cs ih =>
      by_cases ha : c.active = true
      · rw [List.filter_cons_of_pos (by simpa using ha)]
        simp only [runChecks, ih]
      · rw [List.filter_cons_of_neg (by simpa using ha)]
        simp only [runChecks, if_neg ha, ih]
  unfold checkInputs
  rw [this]

theorem passed_not {ws : List String} (h : checkInputs W cs = .passed ws) {c : Check} (hc : c ∈ cs)
    (ha : c.active = true) (hr : c.raises = true) {ρ : Point} (hρ : Item W ρ) : ¬ Truth W ρ c.cond := by
  have he : Evaluates W cs := by
    rw [runChecks_ok]
    unfold checkInputs at h
    cases hr : runChecks W cs with
    | error x => rw [hr] at h; cases h
    | ok r => exact ⟨r, rfl⟩
  exact (C87_passes hρ.1 he).1 ⟨ws, h⟩ c hc ha hr ρ hρ

theorem truth_below (n : String) (q : Rat) (ρ : Point) :
    Truth W ρ (.atom (.cmp (.input n) .lt (.num q))) ↔ Less (asNumber (valueOf (W.input n) ρ)) (.num q) := by
  simp only [Truth, LeafTruth, Compares, lhsValue, rhsValue, asNumber]

theorem truth_above (n : String) (q : Rat) (ρ : Point) :
    Truth W ρ (.atom (.cmp (.input n) .gt (.num q))) ↔ Less (.num q) (asNumber (valueOf (W.input n) ρ)) := by
  simp only [Truth, LeafTruth, Compares, lhsValue, rhsValue, asNumber]

theorem truth_infinite (n : String) (ρ : Point) :
    Truth W ρ (.atom (.cmp (.input n) .eq .inf)) ↔ valueOf (W.input n) ρ = .posInf := by
  simp only [Truth, LeafTruth, Compares, lhsValue, rhsValue, asNumber, Where.Same]
  cases valueOf (W.input n) ρ <;> simp [asNumber]

end

section
variable {W : Where.Env} {ws : List String}

/-- In a model that was built, every technology at every node has a base technology. -/
theorem C87_base_tech (h : checkInputs W baseChecks = .passed ws) {ρ : Point} (hρ : Item W ρ) :
    GivenAt W "base_tech" ρ := by
  have := passed_not h (c := mustHaveBase) (by simp [baseChecks]) rfl rfl hρ
  simpa [mustHaveBase, GivenAt] using this

/-- In a model that was built, only transmission technologies have distances and values per distance. -/
theorem C87_distance (h : checkInputs W baseChecks = .passed ws) {ρ : Point} (hρ : Item W ρ)
    (ht : ¬ Text W "base_tech" "transmission" ρ) {n : String}
    (hn : n ∈ ["distance", "flow_in_eff_per_distance", "flow_out_eff_per_distance", "cost_flow_cap_per_distance"]) :
    ¬ GivenAt W n ρ := by
  have := passed_not h (c := distanceOnlyForTransmission) (by simp [baseChecks]) rfl rfl hρ
  simp only [distanceOnlyForTransmission, truth_both, truth_no, truth_isText, ht, not_false_eq_true, true_and, Truth,
    RestTruth, connect, truth_given', not_or] at this
  simp only [List.mem_cons, List.not_mem_nil, or_false] at hn
  rcases hn with rfl | rfl | rfl | rfl
  · exact this.1.1.1
  · exact this.1.1.2
  · exact this.1.2
  · exact this.2

/-- In a model that was built, what is paid for having capacity (a negative cost) has a finite maximum. -/
theorem C87_negative_cost (h : checkInputs W baseChecks = .passed ws) {ρ : Point} (hρ : Item W ρ) {cost max : String}
    (hn : (cost, max) ∈ [("cost_flow_cap", "flow_cap_max"), ("cost_storage_cap", "storage_cap_max"),
      ("cost_area_use", "area_use_max"), ("cost_source_cap", "source_cap_max")])
    {q : Rat} (hq : valueOf (W.input cost) ρ = .num q) (hneg : q < 0) : GivenAt W max ρ := by
  have key : ∀ c ∈ baseChecks, c.active = true → c.raises = true →
      c.cond = both (.atom (.cmp (.input cost) .lt (.num 0))) (no (given max)) → GivenAt W max ρ := by
    intro c hc ha hr hcond
    have := passed_not h hc ha hr hρ
    rw [hcond, truth_both, truth_below, hq, truth_no, truth_given'] at this
    by_contra hg
    exact this ⟨.num hneg, hg⟩
  simp only [List.mem_cons, List.not_mem_nil, or_false, Prod.mk.injEq] at hn
  rcases hn with ⟨rfl, rfl⟩ | ⟨rfl, rfl⟩ | ⟨rfl, rfl⟩ | ⟨rfl, rfl⟩
  · exact key unboundedFlowCapCost (by simp [baseChecks]) rfl rfl rfl
  · exact key unboundedStorageCapCost (by simp [baseChecks]) rfl rfl rfl
  · exact key unboundedAreaUseCost (by simp [baseChecks]) rfl rfl rfl
  · exact key unboundedSourceUseCost (by simp [baseChecks]) rfl rfl rfl

/-- In a model that was built, demand and sources that are to be met exactly are not infinite. -/
theorem C87_finite (h : checkInputs W baseChecks = .passed ws) {ρ : Point} (hρ : Item W ρ) :
    valueOf (W.input "source_use_equals") ρ ≠ .posInf ∧ valueOf (W.input "sink_use_equals") ρ ≠ .posInf := by
  have := passed_not h (c := finiteSourceUse) (by simp [baseChecks]) rfl rfl hρ
  simp only [finiteSourceUse, truth_either, truth_infinite, not_or] at this
  exact this

/-- In a model that was built, an initial level of storage is a fraction.  Missing: infinite values, which are not
reported (`C87_initial_infinite`). -/
theorem C87_initial_partial (h : checkInputs W baseChecks = .passed ws) {ρ : Point} (hρ : Item W ρ)
    (hk : (W.input "storage_initial").kind = .number) {q : Rat}
    (hq : (W.input "storage_initial").arr.at ρ = .num q) : 0 ≤ q ∧ q ≤ 1 := by
  have := passed_not h (c := storageInitialMax) (by simp [baseChecks]) rfl rfl hρ
  have hv : valueOf (W.input "storage_initial") ρ = .num q := by unfold valueOf; rw [hq]; simp
  have hg : GivenAt W "storage_initial" ρ := .inr ⟨by rw [hk]; simp, by rw [hq]; simp, by rw [hq]; simp, by rw [hq]; simp⟩
  simp only [storageInitialMax, truth_both, truth_given', hg, true_and, truth_either, truth_below, truth_above, hv,
    asNumber, not_or] at this
  refine ⟨?_, ?_⟩
  · by_contra hn; exact this.1 (.num (not_le.1 hn))
  · by_contra hn; exact this.2 (.num (not_le.1 hn))

/-- An infinite initial level of storage is never reported. -/
theorem C87_initial_infinite {ρ : Point} (hi : (W.input "storage_initial").arr.at ρ = .posInf)
    (hk : (W.input "storage_initial").kind = .number) : ¬ Truth W ρ storageInitialMax.cond := by
  simp only [storageInitialMax, truth_both, truth_given', GivenAt, Where.Given, hi, hk]
  simp

/-- In a model that was built, a carrier that a technology exports is one that it gives out at some node. -/
theorem C87_export (h : checkInputs W baseChecks = .passed ws) {ρ : Point} (hρ : Item W ρ)
    (he : GivenAt W "carrier_export" ρ) : ∃ σ, Elsewhere W ρ σ ∧ GivenAt W "carrier_out" σ := by
  have := passed_not h (c := exportOnlyForOutflows) (by simp [baseChecks]) rfl rfl hρ
  simp only [exportOnlyForOutflows, truth_both, truth_given', he, true_and, truth_no, not_not, Truth, LeafTruth] at this
  obtain ⟨σ, hσ, hg⟩ := this
  refine ⟨σ, ⟨fun d => ?_, fun d hd => ?_⟩, hg⟩
  · by_cases hd : d ∈ (W.input "carrier_out").arr.dims.filter (fun d => ["nodes"].contains d)
    · exact hσ.2 d hd
    · rw [hσ.1 d hd]; exact hρ.1 d
  · exact hσ.1 d (fun hm => hd (by simpa using (List.mem_filter.1 hm).2))

theorem any_elsewhere {ρ σ : Point} {n : String} (hσ : Elsewhere W ρ σ) (hg : GivenAt W n σ) :
    Truth W ρ (.atom (.anyInput n ["nodes"])) := by
  simp only [Truth, LeafTruth]
  refine ⟨fun d => if d ∈ (W.input n).arr.dims.filter (fun d => ["nodes"].contains d) then σ d else ρ d,
    ⟨fun d hd => by simp only [if_neg hd], fun d hd => by simp only [if_pos hd]; exact hσ.1 d⟩, ?_⟩
  unfold GivenAt at hg
  convert hg using 1
  apply at_congr
  intro d hd
  by_cases hn : d = "nodes"
  · rw [if_pos (List.mem_filter.2 ⟨hd, by simp [hn]⟩)]
  · rw [if_neg (fun hm => hn (by simpa using (List.mem_filter.1 hm).2)), hσ.2 d hn]

/-- In a model that was built, if one node has a latitude or a longitude then every node with technologies has one of
them.  Missing: that it has both, of which nothing is checked (`C87_location_missed`). -/
theorem C87_location_partial (h : checkInputs W baseChecks = .passed ws) {ρ σ : Point} (hρ : Item W ρ)
    (hσ : Elsewhere W ρ σ) (hg : GivenAt W "latitude" σ ∨ GivenAt W "longitude" σ) :
    GivenAt W "latitude" ρ ∨ GivenAt W "longitude" ρ := by
  have := passed_not h (c := allOrNothingLatLon) (by simp [baseChecks]) rfl rfl hρ
  simp only [allOrNothingLatLon, truth_both, truth_either, truth_no, truth_given', not_and, not_not] at this
  exact this (hg.imp (any_elsewhere hσ) (any_elsewhere hσ))

/-- A node with a latitude and no longitude is never reported. -/
theorem C87_location_missed {ρ : Point} (hg : GivenAt W "latitude" ρ) :
    ¬ Truth W ρ allOrNothingLatLon.cond := by
  simp only [allOrNothingLatLon, truth_both, truth_either, truth_no, truth_given', hg, true_or, not_true_eq_false,
    and_false, not_false_eq_true]

/-- If nothing is said about cyclic storage, a model with clustered days is never built: the check only asks whether
cyclic storage is on, which it is by default, and not whether there is any storage. -/
theorem C87_clustered (hc : W.input "cyclic_storage" = addInput ⟨true, .boolean, .bool true⟩ none)
    {ρ : Point} (hρ : Item W ρ) (hl : GivenAt W "lookup_cluster_last_timestep" ρ) (ws : List String) :
    checkInputs W baseChecks ≠ .passed ws := by
  intro h
  refine passed_not h (c := cyclicStorageNeedsInterCluster) (by simp [baseChecks]) rfl rfl hρ ?_
  simp only [cyclicStorageNeedsInterCluster, truth_both, truth_given', hl, and_true]
  unfold GivenAt
  rw [hc]
  exact .inl ⟨rfl, rfl⟩

/-- In a model with integer units that was built, units are only switched on and off where capacities are in units, and
a capacity per unit is not given together with a minimum or maximum. -/
theorem C87_units (h : checkInputs W (baseChecks ++ milpChecks) = .passed ws) {ρ : Point} (hρ : Item W ρ) :
    (Flag W "integer_dispatch" ρ → Text W "cap_method" "integer" ρ) ∧
    (GivenAt W "flow_cap_per_unit" ρ → ¬ GivenAt W "flow_cap_max" ρ ∧ ¬ GivenAt W "flow_cap_min" ρ) ∧
    (GivenAt W "storage_cap_per_unit" ρ → ¬ GivenAt W "storage_cap_max" ρ ∧ ¬ GivenAt W "storage_cap_min" ρ) := by
  have h1 := passed_not h (c := unitCommitmentOnlyForUnits) (by simp [milpChecks]) rfl rfl hρ
  have h2 := passed_not h (c := conflictingFlowCaps) (by simp [milpChecks]) rfl rfl hρ
  have h3 := passed_not h (c := conflictingStorageCaps) (by simp [milpChecks]) rfl rfl hρ
  simp only [unitCommitmentOnlyForUnits, conflictingFlowCaps, conflictingStorageCaps, truth_both, truth_either, truth_no,
    truth_given', truth_isTrue, truth_isText, not_and, not_not, not_or] at h1 h2 h3
  refine ⟨h1, fun hg => ?_, fun hg => ?_⟩
  · exact ⟨fun hm => h2 (.inl hm) hg, fun hm => h2 (.inr hm) hg⟩
  · exact ⟨fun hm => h3 (.inl hm) hg, fun hm => h3 (.inr hm) hg⟩

/-- In a model in operate mode that was built, no storage is cyclic. -/
theorem C87_operate (h : checkInputs W (baseChecks ++ operateChecks) = .passed ws) {ρ : Point} (hρ : Item W ρ)
    (hs : Text W "base_tech" "storage" ρ ∨ Flag W "include_storage" ρ) : ¬ Flag W "cyclic_storage" ρ := by
  have := passed_not h (c := operateModeCyclicStorage) (by simp [operateChecks]) rfl rfl hρ
  simp only [operateModeCyclicStorage, truth_both, truth_either, truth_isTrue, truth_isText, not_and] at this
  exact fun hf => this hf hs

/-- In a model with integer units that was built, only transmission technologies have a price per unit and distance. -/
theorem C87_distance_units (h : checkInputs W (baseChecks ++ milpChecks) = .passed ws) {ρ : Point} (hρ : Item W ρ)
    (hg : GivenAt W "cost_purchase_per_distance" ρ) : Text W "base_tech" "transmission" ρ := by
  have := passed_not h (c := distanceOnlyForTransmissionMilp) (by simp [milpChecks]) rfl rfl hρ
  simp only [distanceOnlyForTransmissionMilp, truth_both, truth_no, truth_isText, truth_given', hg, and_true,
    not_not] at this
  exact this

/-- What a model that was built warns of: prices on the inflow of supply and on the outflow of demand, and a depth of
discharge with clustered days.  Nothing else. -/
theorem C87_warned {ρ₀ : Point} (hρ₀ : Valid W ρ₀) (h : checkInputs W baseChecks = .passed ws) (m : String) :
    m ∈ ws ↔
      (m = "`cost_flow_in` does not apply to `supply` technologies. Use `cost_source_use` instead." ∧
        ∃ ρ, Item W ρ ∧ Text W "base_tech" "supply" ρ ∧ GivenAt W "cost_flow_in" ρ) ∨
      (m = "`cost_flow_out` does not apply to `demand` technologies. Use `cost_flow_in` instead." ∧
        ∃ ρ, Item W ρ ∧ Text W "base_tech" "demand" ρ ∧ GivenAt W "cost_flow_out" ρ) ∨
      (m = "storage_discharge_depth will currently have no effect when time clustering is active." ∧
        ∃ ρ, Item W ρ ∧ GivenAt W "storage_discharge_depth" ρ ∧ GivenAt W "lookup_cluster_last_timestep" ρ) := by
  rw [(C87_warnings hρ₀ h).all m]
  have e1 : Reported W flowInForSupplyTech ↔
      ∃ ρ, Item W ρ ∧ Text W "base_tech" "supply" ρ ∧ GivenAt W "cost_flow_in" ρ := by
    simp only [Reported, flowInForSupplyTech, truth_both, truth_isText, truth_given']
  have e2 : Reported W flowOutForDemandTech ↔
      ∃ ρ, Item W ρ ∧ Text W "base_tech" "demand" ρ ∧ GivenAt W "cost_flow_out" ρ := by
    simp only [Reported, flowOutForDemandTech, truth_both, truth_isText, truth_given']
  have e3 : Reported W noStorageDischargeDepthWhenClustering ↔
      ∃ ρ, Item W ρ ∧ GivenAt W "storage_discharge_depth" ρ ∧ GivenAt W "lookup_cluster_last_timestep" ρ := by
    simp only [Reported, noStorageDischargeDepthWhenClustering, truth_both, truth_given']
  rw [← e1, ← e2, ← e3]
  constructor
  · rintro ⟨c, hc, ha, hr, rfl, hrep⟩
    simp only [baseChecks, List.mem_cons, List.not_mem_nil, or_false] at hc
    rcases hc with rfl | rfl | rfl | rfl | rfl | rfl | rfl | rfl | rfl | rfl | rfl | rfl | rfl | rfl <;>
      first
        | exact absurd hr (by decide)
        | exact .inl ⟨rfl, hrep⟩
        | exact .inr (.inl ⟨rfl, hrep⟩)
        | exact .inr (.inr ⟨rfl, hrep⟩)
  · rintro (⟨rfl, h⟩ | ⟨rfl, h⟩ | ⟨rfl, h⟩)
    · exact ⟨flowInForSupplyTech, by simp [baseChecks], rfl, rfl, rfl, h⟩
    · exact ⟨flowOutForDemandTech, by simp [baseChecks], rfl, rfl, rfl, h⟩
    · exact ⟨noStorageDischargeDepthWhenClustering, by simp [baseChecks], rfl, rfl, rfl, h⟩

end

end BaseMath
end Calliope
