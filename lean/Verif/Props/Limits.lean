import Mathlib.Tactic.Linarith
import Mathlib.Tactic.Ring
import Verif.Proofs.Limits
import Verif.Props.Variables

/-!
# C78: flows and storage stay within capacities
-/

namespace Calliope
namespace BaseMath

open Grid Infix Expr Expand Build Where

variable {V : Type}

/-- What is left to show of an expression without references and without sums. -/
macro "plain_sides" : tactic => `(tactic| simp [findSubs, bodySlices, under, bin, bin3, subRefs, subRefsRest,
  sliceRefs, sliceRefsRest, Ok, OkRest, NoOps, Apart, ApartRest])

section
variable [Field V] [LinearOrder V] [IsStrictOrderedRing V] {W : Where.Env} {E : Expr.Env V} {pw : V → V → V}
  {enum : List String → List String} {b : Arr (Option (Cell V))} {ρ : Point}

omit [IsStrictOrderedRing V] in
theorem Plant.decisionCap (P : Plant W E) : Decision W E "flow_cap" ["nodes", "techs", "carriers"] P.cap :=
  P.isCap.elim (fun h => h.decision) (fun h => h.decision)

omit [IsStrictOrderedRing V] in
theorem Plant.decisionStorageCap (P : Plant W E) : Decision W E "storage_cap" ["nodes", "techs"] P.storageCap :=
  P.isStorageCap.elim (fun h => h.decision) (fun h => h.decision)

omit [IsStrictOrderedRing V] in
theorem Plant.decisionSourceCap (P : Plant W E) : Decision W E "source_cap" ["nodes", "techs"] P.sourceCap :=
  P.isSourceCap.elim (fun h => h.decision) (fun h => h.decision)

section
variable (S : Setting W E pw) (henum : Traverses enum) (P : Plant W E)
include S henum

theorem outflow_bound (hρ : Valid W ρ) {top : Cond} (hp : Present W ["nodes", "techs", "carriers", "timesteps"] top ρ)
    (hb : buildConstraint W E enum (single "flow_out_max" ["nodes", "techs", "carriers", "timesteps"] top
      (.cmp (.comp "flow_out") "<=" (bin3 (.comp "flow_cap") .times (.comp "timestep_resolution") .times (.comp
      "flow_out_parasitic_eff")))) = .ok b) (hs : Satisfied b ρ) : P.out ρ ≤ P.cap ρ * P.hours ρ * P.parasitic ρ := by
  refine single_le S.wf henum (by simp) hb hρ (by plain_sides) (by plain_sides) (by plain_sides) hp hs ?_ ?_
  · rw [plain_val, val_comp]
    exact P.isOut.decision.is.at ρ
  · rw [plain_val, val_bin3, val_comp, val_comp, val_comp, P.decisionCap.is.at, P.isHours.at, P.isParasitic.at,
      S.numbers.times, S.numbers.times]

theorem inflow_bound (hρ : Valid W ρ) {top : Cond} (hp : Present W ["nodes", "techs", "carriers", "timesteps"] top ρ)
    (hb : buildConstraint W E enum (single "flow_in_max" ["nodes", "techs", "carriers", "timesteps"] top
      (.cmp (.comp "flow_in") "<=" (bin (.comp "flow_cap") .times (.comp "timestep_resolution")))) = .ok b)
    (hs : Satisfied b ρ) : P.inn ρ ≤ P.cap ρ * P.hours ρ := by
  refine single_le S.wf henum (by simp) hb hρ (by plain_sides) (by plain_sides) (by plain_sides) hp hs ?_ ?_
  · rw [plain_val, val_comp]
    exact P.isInn.decision.is.at ρ
  · rw [plain_val, val_bin, val_comp, val_comp, P.decisionCap.is.at, P.isHours.at, S.numbers.times]

/-- C78, outflow: for every technology, node, carrier and time step, outflow is not negative and at most what the
capacity gives in that time, less what the technology uses itself. -/
theorem C78_outflow (hb : buildConstraint W E enum flowOutMax = .ok b) (hρ : Valid W ρ) (hs : Satisfied b ρ) :
    0 ≤ P.out ρ ∧ P.out ρ ≤ P.cap ρ * P.hours ρ * P.parasitic ρ := by
  refine ⟨P.isOut.nonneg' rfl hρ, ?_⟩
  by_cases hi : ItemOf W (flowOutVar (V := V)) ρ
  · exact outflow_bound S henum P hρ hi hb hs
  · rw [(C79_values P.isOut hρ).2 hi]
    exact mul_nonneg (mul_nonneg (P.capNonneg ρ hρ) (P.hoursNonneg ρ hρ)) (P.parasiticNonneg ρ hρ)

/-- C78, inflow. -/
theorem C78_inflow (hb : buildConstraint W E enum flowInMax = .ok b) (hρ : Valid W ρ) (hs : Satisfied b ρ) :
    0 ≤ P.inn ρ ∧ P.inn ρ ≤ P.cap ρ * P.hours ρ := by
  refine ⟨P.isInn.nonneg' rfl hρ, ?_⟩
  by_cases hi : ItemOf W (flowInVar (V := V)) ρ
  · exact inflow_bound S henum P hρ hi hb hs
  · rw [(C79_values P.isInn hρ).2 hi]
    exact mul_nonneg (P.capNonneg ρ hρ) (P.hoursNonneg ρ hρ)

/-- C78, least outflow: where a least share of the capacity is given, at least that share of what the capacity gives
in that time flows out. -/
theorem C78_least_outflow {share : Point → V} (hd : Is E "flow_out_min_relative" [] share)
    (hw : Within W ["nodes", "techs", "carriers", "timesteps"] ["flow_out_min_relative"])
    (hb : buildConstraint W E enum flowOutMin = .ok b) (hρ : Valid W ρ) (hs : Satisfied b ρ)
    (hi : ItemOf W (flowOutVar (V := V)) ρ) (hg : GivenAt W "flow_out_min_relative" ρ) :
    share ρ * (P.cap ρ * P.hours ρ) ≤ P.out ρ := by
  have hp : Present W ["nodes", "techs", "carriers", "timesteps"] (given "flow_out_min_relative") ρ := by
    obtain ⟨g1, σ, g2, g3, g4, -⟩ := hi
    exact ⟨g1, σ, g2, g3, g4, (truth_given' _ σ).2 ((givenAt_same (hw _ (by simp)) g3).2 hg)⟩
  have : P.cap ρ * P.hours ρ * share ρ ≤ P.out ρ := by
    refine single_ge S.wf henum (by simp) hb hρ (by plain_sides) (by plain_sides) (by plain_sides) hp hs ?_ ?_
    · rw [plain_val, val_comp]
      exact P.isOut.decision.is.at ρ
    · rw [plain_val, val_bin3, val_comp, val_comp, val_comp, P.decisionCap.is.at, P.isHours.at, hd.at,
        S.numbers.times, S.numbers.times]
  rwa [mul_comm]

omit S henum [Field V] [LinearOrder V] [IsStrictOrderedRing V] in
/-- A component that exists wherever another one does, at the same labels. -/
theorem present_from {v : Variable V} {n : String} (hi : ItemOf W v ρ)
    (h : ∀ σ, Valid W σ → ItemOf W v σ → Exists W n σ) : Present W v.foreach (built n) ρ := by
  obtain ⟨g1, σ, g2, g3, g4, g5⟩ := hi
  exact ⟨g1, σ, g2, g3, g4, (truth_built' n σ).2 (h σ g2 ⟨g1, σ, g2, fun _ _ => rfl, g4, g5⟩)⟩

omit S henum [IsStrictOrderedRing V] in
theorem Plant.sourceCap_exists (P : Plant W E) (hρ : Valid W ρ) (hi : ItemOf W (sourceUseVar (V := V)) ρ) :
    Exists W "source_cap" ρ := by
  obtain ⟨g1, σ, g2, g3, g4, g5⟩ := hi
  have key : (∀ d ∈ ["nodes", "techs"], d ∈ W.matrix.dims ∨ d ∈ W.dims) ∧
      ∃ σ, Valid W σ ∧ SameAlong ["nodes", "techs"] ρ σ ∧ W.matrix.at σ = true ∧
        Truth W σ (isText "base_tech" "supply") :=
    ⟨fun d hd => g1 d ((by decide : ∀ d ∈ ["nodes", "techs"], d ∈ ["nodes", "techs", "timesteps"]) d hd), σ, g2,
      fun d hd => g3 d ((by decide : ∀ d ∈ ["nodes", "techs"], d ∈ ["nodes", "techs", "timesteps"]) d hd), g4, g5⟩
  rcases P.isSourceCap with h | h
  · exact (C79_exists h hρ).2 key
  · exact (C79_exists h hρ).2 key

/-- C78, sources: where a source is used, its use is at most what the capacity of the source gives in that time. -/
theorem C78_source (hb : buildConstraint W E enum sourceMax = .ok b) (hρ : Valid W ρ) (hs : Satisfied b ρ)
    (h0 : 0 ≤ P.sourceCap ρ) : 0 ≤ P.source ρ ∧ P.source ρ ≤ P.hours ρ * P.sourceCap ρ := by
  refine ⟨P.isSource.nonneg' rfl hρ, ?_⟩
  by_cases hi : ItemOf W (sourceUseVar (V := V)) ρ
  · refine single_le S.wf henum (by simp) hb hρ (by plain_sides) (by plain_sides) (by plain_sides)
      (present_from hi fun σ hσ hi => P.sourceCap_exists hσ hi) hs ?_ ?_
    · rw [plain_val, val_comp]
      exact P.isSource.decision.is.at ρ
    · rw [plain_val, val_bin, val_comp, val_comp, P.decisionSourceCap.is.at, P.isHours.at, S.numbers.times]
  · rw [(C79_values P.isSource hρ).2 hi]
    exact mul_nonneg (P.hoursNonneg ρ hρ) h0

/-- C78, storage: what is stored is not negative and at most the storage capacity. -/
theorem C78_storage (hb : buildConstraint W E enum storageMax = .ok b) (hρ : Valid W ρ) (hs : Satisfied b ρ)
    (h0 : 0 ≤ P.storageCap ρ) : 0 ≤ P.level ρ ∧ P.level ρ ≤ P.storageCap ρ := by
  refine ⟨P.isLevel.nonneg' rfl hρ, ?_⟩
  by_cases hi : ItemOf W (storageVar (V := V)) ρ
  · refine single_le S.wf henum (by simp) hb hρ (by plain_sides) (by plain_sides) (by plain_sides)
      (present_from hi fun σ hσ hi => (C79_exists P.isLevel hσ).2 hi) hs ?_ ?_
    · rw [plain_val, val_comp]
      exact P.isLevel.decision.is.at ρ
    · rw [plain_val, val_comp]
      exact P.decisionStorageCap.is.at ρ
  · rw [(C79_values P.isLevel hρ).2 hi]
    exact h0

/-- C78, depth of discharge: storage for which a depth is given never falls below that part of its capacity. -/
theorem C78_depth {depth : Point → V} (hd : Is E "storage_discharge_depth" [] depth)
    (hw : Within W ["nodes", "techs", "timesteps"] ["storage_discharge_depth"])
    (hb : buildConstraint W E enum storageDischargeDepthLimit = .ok b) (hρ : Valid W ρ) (hs : Satisfied b ρ)
    (hi : ItemOf W (storageVar (V := V)) ρ) (hg : GivenAt W "storage_discharge_depth" ρ) :
    depth ρ * P.storageCap ρ ≤ P.level ρ := by
  have hp : Present W ["nodes", "techs", "timesteps"] (both (built "storage") (given "storage_discharge_depth")) ρ := by
    obtain ⟨g1, σ, g2, g3, g4, g5⟩ := hi
    refine ⟨g1, σ, g2, g3, g4, (truth_both _ _ _).2 ⟨?_, ?_⟩⟩
    · exact (truth_built' _ σ).2 ((C79_exists P.isLevel g2).2 ⟨g1, σ, g2, fun _ _ => rfl, g4, g5⟩)
    · exact (truth_given' _ σ).2 ((givenAt_same (hw _ (by simp)) g3).2 hg)
  have : 0 ≤ P.level ρ - depth ρ * P.storageCap ρ := by
    refine single_ge S.wf henum (by simp) hb hρ (by plain_sides) (by plain_sides) (by plain_sides) hp hs ?_ ?_
    · rw [plain_val, val_bin, val_bin, val_comp, val_comp, val_comp, hd.at, P.decisionStorageCap.is.at,
        show valueAt E "storage" ρ = some (P.level ρ) from P.isLevel.decision.is.at ρ, S.numbers.times,
        S.numbers.minus]
    · rw [plain_val, val_num]
  linarith

/-- C78, export: no more is exported than flows out. -/
theorem C78_export (hb : buildConstraint W E enum exportBalance = .ok b) (hρ : Valid W ρ) (hs : Satisfied b ρ) :
    P.exp ρ ≤ P.out ρ := by
  by_cases hi : ItemOf W (flowExportVar (V := V)) ρ
  · refine single_ge S.wf henum (by simp) hb hρ (by plain_sides) (by plain_sides) (by plain_sides)
      (present_from hi fun σ hσ hi => (C79_exists P.isExp hσ).2 hi) hs ?_ ?_
    · rw [plain_val, val_comp]
      exact P.isOut.decision.is.at ρ
    · rw [plain_val, val_comp]
      exact P.isExp.decision.is.at ρ
  · rw [(C79_values P.isExp hρ).2 hi]
    exact P.isOut.nonneg' rfl hρ

/-- C78, no capacity: without flow capacity nothing flows. -/
theorem C78_idle {b' : Arr (Option (Cell V))} (hb : buildConstraint W E enum flowOutMax = .ok b)
    (hb' : buildConstraint W E enum flowInMax = .ok b') (hρ : Valid W ρ) (hs : Satisfied b ρ) (hs' : Satisfied b' ρ)
    (h0 : P.cap ρ = 0) : P.out ρ = 0 ∧ P.inn ρ = 0 := by
  obtain ⟨h1, h2⟩ := C78_outflow S henum P hb hρ hs
  obtain ⟨h3, h4⟩ := C78_inflow S henum P hb' hρ hs'
  rw [h0, zero_mul, zero_mul] at h2
  rw [h0, zero_mul] at h4
  exact ⟨le_antisymm h2 h1, le_antisymm h4 h3⟩

/-! ### Integer units -/

variable (U : Units W E)

omit S henum [IsStrictOrderedRing V] in
theorem Units.bought_exists (U : Units W E) (hρ : Valid W ρ) (h : Exists W "operating_units" ρ) :
    Exists W "purchased_units" ρ := by
  obtain ⟨g1, σ, g2, g3, g4, g5⟩ := (C79_exists U.isRunning hρ).1 h
  refine (C79_exists U.isBought hρ).2 ⟨?_, σ, g2, ?_, g4, ?_⟩
  · exact fun d hd => g1 d ((by decide : ∀ d ∈ ["nodes", "techs"], d ∈ ["nodes", "techs", "timesteps"]) d hd)
  · exact fun d hd => g3 d ((by decide : ∀ d ∈ ["nodes", "techs"], d ∈ ["nodes", "techs", "timesteps"]) d hd)
  · exact ((truth_both _ _ _).1 g5).2

/-- C78, units: what runs is at most what was bought. -/
theorem C78_running (hb : buildConstraint W E enum unitCommitmentMilp = .ok b) (hρ : Valid W ρ) (hs : Satisfied b ρ)
    (he : Exists W "operating_units" ρ) : 0 ≤ U.running ρ ∧ U.running ρ ≤ U.bought ρ := by
  refine ⟨U.isRunning.nonneg' rfl hρ, ?_⟩
  obtain ⟨g1, σ, g2, g3, g4, g5⟩ := (C79_exists U.isRunning hρ).1 he
  have hx : Exists W "operating_units" σ := (C79_exists U.isRunning g2).2 ⟨g1, σ, g2, fun _ _ => rfl, g4, g5⟩
  refine single_le S.wf henum (by simp) hb hρ (by plain_sides) (by plain_sides) (by plain_sides)
    ⟨g1, σ, g2, g3, g4, (truth_both _ _ _).2 ⟨(truth_built' _ σ).2 hx, (truth_built' _ σ).2 (U.bought_exists g2 hx)⟩⟩
    hs ?_ ?_
  · rw [plain_val, val_comp]
    exact U.isRunning.decision.is.at ρ
  · rw [plain_val, val_comp]
    exact U.isBought.decision.is.at ρ

/-- C78, units: the flow capacity of units of a given size is the number bought times the size. -/
theorem C78_unit_capacity (hb : buildConstraint W E enum flowCapacityUnitsMilp = .ok b) (hρ : Valid W ρ)
    (hs : Satisfied b ρ) (hw : Within W ["nodes", "techs", "carriers"] ["flow_cap_per_unit"])
    (hin : InModel W ["nodes", "techs", "carriers"] ρ)
    (he : Exists W "purchased_units" ρ) (hg : GivenAt W "flow_cap_per_unit" ρ) :
    P.cap ρ = U.bought ρ * U.perUnit ρ := by
  have hloc : Local W ["nodes", "techs", "carriers"] (both (built "purchased_units") (given "flow_cap_per_unit")) :=
    ⟨fun a ha d hd => (by decide : ∀ d ∈ ["nodes", "techs"], d ∈ ["nodes", "techs", "carriers"]) d
      (U.isBought.decision.within a ha d hd), hw _ (by simp)⟩
  refine single_eq S.wf henum (by simp) hb hρ (by plain_sides) (by plain_sides) (by plain_sides)
    ((present_local hloc).2 ⟨hin, (truth_both _ _ _).2 ⟨(truth_built' _ ρ).2 he, (truth_given' _ ρ).2 hg⟩⟩) hs ?_ ?_
  · rw [plain_val, val_comp]
    exact P.decisionCap.is.at ρ
  · rw [plain_val, val_bin, val_comp, val_comp, U.isPerUnit.at,
      show valueAt E "purchased_units" ρ = some (U.bought ρ) from U.isBought.decision.is.at ρ, S.numbers.times]

/-- C78, units: with units of a given size, outflow and inflow are at most what the units that run give, which is at most
what the capacity gives; when none runs, nothing flows. -/
theorem C78_units {b1 b2 b3 b4 : Arr (Option (Cell V))} (h1 : buildConstraint W E enum unitCommitmentMilp = .ok b1)
    (h2 : buildConstraint W E enum flowCapacityUnitsMilp = .ok b2)
    (h3 : buildConstraint W E enum flowOutMaxMilp = .ok b3) (h4 : buildConstraint W E enum flowInMaxMilp = .ok b4)
    (hw : Within W ["nodes", "techs", "carriers"] ["flow_cap_per_unit"]) (hρ : Valid W ρ)
    (s1 : Satisfied b1 ρ) (s2 : Satisfied b2 ρ) (s3 : Satisfied b3 ρ) (s4 : Satisfied b4 ρ)
    (he : Exists W "operating_units" ρ) (hg : GivenAt W "flow_cap_per_unit" ρ) :
    (P.out ρ ≤ U.running ρ * U.perUnit ρ * P.hours ρ * P.parasitic ρ ∧ P.out ρ ≤ P.cap ρ * P.hours ρ * P.parasitic ρ) ∧
    (P.inn ρ ≤ U.running ρ * U.perUnit ρ * P.hours ρ ∧ P.inn ρ ≤ P.cap ρ * P.hours ρ) ∧
    (U.running ρ = 0 → P.out ρ = 0 ∧ P.inn ρ = 0) := by
  obtain ⟨r0, r1⟩ := C78_running S henum U h1 hρ s1 he
  have hbig : ∀ d ∈ ["nodes", "techs", "timesteps"], d ∈ ["nodes", "techs", "carriers", "timesteps"] := by decide
  have hgl : ∀ d ∈ (W.input "flow_cap_per_unit").arr.dims, d ∈ ["nodes", "techs", "carriers", "timesteps"] :=
    fun d hd => (by decide : ∀ d ∈ ["nodes", "techs", "carriers"], d ∈ ["nodes", "techs", "carriers", "timesteps"]) d
      (hw _ (by simp) d hd)
  have hrun : ∀ a, W.result "operating_units" = some a → ∀ d ∈ a.dims, d ∈ ["nodes", "techs", "carriers", "timesteps"] :=
    fun a ha d hd => hbig d (U.isRunning.decision.within a ha d hd)
  have c0 := P.capNonneg ρ hρ
  have t0 := P.hoursNonneg ρ hρ
  have p0 := P.parasiticNonneg ρ hρ
  have u0 := U.perUnitNonneg ρ hρ
  have hcap : InModel W ["nodes", "techs", "carriers", "timesteps"] ρ →
      U.running ρ * U.perUnit ρ * P.hours ρ ≤ P.cap ρ * P.hours ρ := by
    intro hin
    rw [C78_unit_capacity S henum P U h2 hρ s2 hw (inModel_less hin (by decide)) (U.bought_exists hρ he) hg]
    exact mul_le_mul_of_nonneg_right (mul_le_mul_of_nonneg_right r1 u0) t0
  have hout : P.out ρ ≤ U.running ρ * U.perUnit ρ * P.hours ρ * P.parasitic ρ ∧
      P.out ρ ≤ P.cap ρ * P.hours ρ * P.parasitic ρ := by
    by_cases hx : P.out ρ = 0
    · rw [hx]
      exact ⟨mul_nonneg (mul_nonneg (mul_nonneg r0 u0) t0) p0, mul_nonneg (mul_nonneg c0 t0) p0⟩
    · obtain ⟨hin, hex⟩ := P.isOut.decision.only ρ hρ hx
      have hloc : Local W ["nodes", "techs", "carriers", "timesteps"] (.chain (built "flow_out") (.more .and (built
          "operating_units") (.one .and (given "flow_cap_per_unit")))) := ⟨P.isOut.decision.within, hrun, hgl⟩
      have : P.out ρ ≤ U.running ρ * P.hours ρ * U.perUnit ρ * P.parasitic ρ := by
        refine single_le S.wf henum (by simp) h3 hρ (by plain_sides) (by plain_sides) (by plain_sides)
          ((present_local hloc).2 ⟨hin, ?_⟩) s3 ?_ ?_
        · simp only [Truth, RestTruth, connect, truth_built', truth_given']
          exact ⟨⟨hex, he⟩, hg⟩
        · rw [plain_val, val_comp]
          exact P.isOut.decision.is.at ρ
        · rw [plain_val, val_bin4, val_comp, val_comp, val_comp, val_comp, U.isPerUnit.at, P.isHours.at, P.isParasitic.at,
            show valueAt E "operating_units" ρ = some (U.running ρ) from U.isRunning.decision.is.at ρ,
            S.numbers.times, S.numbers.times, S.numbers.times]
      have e : U.running ρ * P.hours ρ * U.perUnit ρ * P.parasitic ρ =
        U.running ρ * U.perUnit ρ * P.hours ρ * P.parasitic ρ := by ring
      rw [e] at this
      exact ⟨this, this.trans (mul_le_mul_of_nonneg_right (hcap hin) p0)⟩
  have hinn : P.inn ρ ≤ U.running ρ * U.perUnit ρ * P.hours ρ ∧ P.inn ρ ≤ P.cap ρ * P.hours ρ := by
    by_cases hx : P.inn ρ = 0
    · rw [hx]
      exact ⟨mul_nonneg (mul_nonneg r0 u0) t0, mul_nonneg c0 t0⟩
    · obtain ⟨hin, hex⟩ := P.isInn.decision.only ρ hρ hx
      have hloc : Local W ["nodes", "techs", "carriers", "timesteps"] (.chain (built "flow_in") (.more .and (built
          "operating_units") (.one .and (given "flow_cap_per_unit")))) := ⟨P.isInn.decision.within, hrun, hgl⟩
      have : P.inn ρ ≤ U.running ρ * P.hours ρ * U.perUnit ρ := by
        refine single_le S.wf henum (by simp) h4 hρ (by plain_sides) (by plain_sides) (by plain_sides)
          ((present_local hloc).2 ⟨hin, ?_⟩) s4 ?_ ?_
        · simp only [Truth, RestTruth, connect, truth_built', truth_given']
          exact ⟨⟨hex, he⟩, hg⟩
        · rw [plain_val, val_comp]
          exact P.isInn.decision.is.at ρ
        · rw [plain_val, val_bin3, val_comp, val_comp, val_comp, U.isPerUnit.at, P.isHours.at,
            show valueAt E "operating_units" ρ = some (U.running ρ) from U.isRunning.decision.is.at ρ,
            S.numbers.times, S.numbers.times]
      have e : U.running ρ * P.hours ρ * U.perUnit ρ = U.running ρ * U.perUnit ρ * P.hours ρ := by ring
      rw [e] at this
      exact ⟨this, this.trans (hcap hin)⟩
  refine ⟨hout, hinn, ?_⟩
  intro hr
  have h1 := hout.1
  have h2 := hinn.1
  rw [hr] at h1 h2
  simp only [zero_mul] at h1 h2
  exact ⟨le_antisymm h1 (P.isOut.nonneg' rfl hρ), le_antisymm h2 (P.isInn.nonneg' rfl hρ)⟩

/-- C78 with integer units: if units of technologies with integer dispatch have a given size, flows are within capacity
everywhere. -/
theorem C78_milp_partial (U : Units W E) {b1 b2 b3 b4 b5 b6 : Arr (Option (Cell V))}
    (h1 : buildConstraint W E enum unitCommitmentMilp = .ok b1)
    (h2 : buildConstraint W E enum flowCapacityUnitsMilp = .ok b2)
    (h3 : buildConstraint W E enum flowOutMaxMilp = .ok b3) (h4 : buildConstraint W E enum flowInMaxMilp = .ok b4)
    (h5 : buildConstraint W E enum flowOutMaxContinuous = .ok b5)
    (h6 : buildConstraint W E enum flowInMaxContinuous = .ok b6)
    (hw : Within W ["nodes", "techs", "carriers"] ["flow_cap_per_unit"]) (hρ : Valid W ρ)
    (s1 : Satisfied b1 ρ) (s2 : Satisfied b2 ρ) (s3 : Satisfied b3 ρ) (s4 : Satisfied b4 ρ) (s5 : Satisfied b5 ρ)
    (s6 : Satisfied b6 ρ) (hsize : Exists W "operating_units" ρ → GivenAt W "flow_cap_per_unit" ρ) :
    P.out ρ ≤ P.cap ρ * P.hours ρ * P.parasitic ρ ∧ P.inn ρ ≤ P.cap ρ * P.hours ρ := by
  by_cases he : Exists W "operating_units" ρ
  · obtain ⟨⟨_, g1⟩, ⟨_, g2⟩, _⟩ := C78_units S henum P U h1 h2 h3 h4 hw hρ s1 s2 s3 s4 he (hsize he)
    exact ⟨g1, g2⟩
  · have hno : ∀ {τ : Point}, SameAlong ["nodes", "techs", "carriers", "timesteps"] ρ τ →
        ¬ Exists W "operating_units" τ := by
      rintro τ hs ⟨a, ha, hv⟩
      refine he ⟨a, ha, ?_⟩
      rw [← hv]
      exact (at_congr a fun d hd => hs d ((by decide : ∀ d ∈ ["nodes", "techs", "timesteps"],
        d ∈ ["nodes", "techs", "carriers", "timesteps"]) d (U.isRunning.decision.within a ha d hd))).symm
    constructor
    · by_cases hi : ItemOf W (flowOutVar (V := V)) ρ
      · obtain ⟨g1, σ, g2, g3, g4, g5⟩ := hi
        refine outflow_bound S henum P hρ ⟨g1, σ, g2, g3, g4, (truth_both _ _ _).2 ⟨g5, ?_⟩⟩ h5 s5
        rw [truth_no, truth_built']
        exact hno g3
      · rw [(C79_values P.isOut hρ).2 hi]
        exact mul_nonneg (mul_nonneg (P.capNonneg ρ hρ) (P.hoursNonneg ρ hρ)) (P.parasiticNonneg ρ hρ)
    · by_cases hi : ItemOf W (flowInVar (V := V)) ρ
      · obtain ⟨g1, σ, g2, g3, g4, g5⟩ := hi
        refine inflow_bound S henum P hρ ⟨g1, σ, g2, g3, g4, (truth_both _ _ _).2 ⟨g5, ?_⟩⟩ h6 s6
        rw [truth_no, truth_built']
        exact hno g3
      · rw [(C79_values P.isInn hρ).2 hi]
        exact mul_nonneg (P.capNonneg ρ hρ) (P.hoursNonneg ρ hρ)

/-- C78 is false for integer dispatch without a size of units: no constraint then limits outflow or inflow by the
capacity or by the number of units that run. -/
theorem C78_unlimited (U : Units W E) {b3 b4 b5 b6 : Arr (Option (Cell V))}
    (h3 : buildConstraint W E enum flowOutMaxMilp = .ok b3) (h4 : buildConstraint W E enum flowInMaxMilp = .ok b4)
    (h5 : buildConstraint W E enum flowOutMaxContinuous = .ok b5)
    (h6 : buildConstraint W E enum flowInMaxContinuous = .ok b6)
    (hw : Within W ["nodes", "techs", "carriers"] ["flow_cap_per_unit"]) (hρ : Valid W ρ)
    (he : Exists W "operating_units" ρ) (hn : ¬ GivenAt W "flow_cap_per_unit" ρ) :
    b3.at ρ = none ∧ b4.at ρ = none ∧ b5.at ρ = none ∧ b6.at ρ = none := by
  have hsame : ∀ σ, SameAlong ["nodes", "techs", "carriers", "timesteps"] ρ σ → Exists W "operating_units" σ := by
    intro σ hs
    obtain ⟨a, ha, hv⟩ := he
    exact ⟨a, ha, by rw [← hv]; exact at_congr a fun d hd => hs d ((by decide : ∀ d ∈ ["nodes", "techs", "timesteps"],
      d ∈ ["nodes", "techs", "carriers", "timesteps"]) d (U.isRunning.decision.within a ha d hd))⟩
  have hgiven : ∀ σ, SameAlong ["nodes", "techs", "carriers", "timesteps"] ρ σ → ¬ GivenAt W "flow_cap_per_unit" σ := by
    intro σ hs hg
    exact hn ((givenAt_same (fun d hd => (by decide : ∀ d ∈ ["nodes", "techs", "carriers"],
      d ∈ ["nodes", "techs", "carriers", "timesteps"]) d (hw _ (by simp) d hd)) hs).1 hg)
  refine ⟨?_, ?_, ?_, ?_⟩ <;> by_contra hne
  · obtain ⟨_, σ, _, g3, _, g5⟩ := (single_cmp S.wf henum (by simp) h3 hρ (by plain_sides) (by plain_sides)
      (by plain_sides)).1.1 hne
    simp only [Truth, RestTruth, connect, truth_built', truth_given'] at g5
    exact hgiven σ g3 g5.2
  · obtain ⟨_, σ, _, g3, _, g5⟩ := (single_cmp S.wf henum (by simp) h4 hρ (by plain_sides) (by plain_sides)
      (by plain_sides)).1.1 hne
    simp only [Truth, RestTruth, connect, truth_built', truth_given'] at g5
    exact hgiven σ g3 g5.2
  · obtain ⟨_, σ, _, g3, _, g5⟩ := (single_cmp S.wf henum (by simp) h5 hρ (by plain_sides) (by plain_sides)
      (by plain_sides)).1.1 hne
    rw [truth_both, truth_no, truth_built'] at g5
    exact g5.2 (hsame σ g3)
  · obtain ⟨_, σ, _, g3, _, g5⟩ := (single_cmp S.wf henum (by simp) h6 hρ (by plain_sides) (by plain_sides)
      (by plain_sides)).1.1 hne
    rw [truth_both, truth_no, truth_built'] at g5
    exact g5.2 (hsame σ g3)

end

end

end BaseMath
end Calliope
