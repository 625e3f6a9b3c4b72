import Verif.Proofs.Units

/-!
# C80: no inflow and outflow at once; C83: integer units
-/

namespace Calliope
namespace BaseMath

open Grid Infix Expr Expand Build Where

variable {V : Type}

section
variable [Field V] [LinearOrder V] [IsStrictOrderedRing V] {W : Where.Env} {E : Expr.Env V} {pw : V → V → V}
  {enum : List String → List String} {b : Arr (Option (Cell V))} {ρ : Point}

section
variable (S : Setting W E pw) (henum : Traverses enum) (P : Plant W E)
include S henum

/-! ### The switch -/

omit S henum [LinearOrder V] [IsStrictOrderedRing V] in
theorem still_outside {n : String} {f : Point → V}
    (h : Decision W E n ["nodes", "techs", "carriers", "timesteps"] f) (hρ : Valid W ρ)
    (hin : ¬ InModel W ["nodes", "techs", "timesteps"] ρ) : Still W f ρ := by
  intro l hl
  by_contra hne
  exact hin (inModel_same (inModel_less (h.only _ (set_valid hρ hl) hne).1 (by decide)) (sameAlong_set (by decide) l))

theorem async_bounds {switch bigM : Point → V} {b1 b2 : Arr (Option (Cell V))}
    (hS : Solves W E asyncFlowSwitchVar switch) (hM : Is E "bigM" [] bigM)
    (hw : Within W ["nodes", "techs"] ["force_async_flow"])
    (h1 : buildConstraint W E enum asyncFlowInMilp = .ok b1) (h2 : buildConstraint W E enum asyncFlowOutMilp = .ok b2)
    (hρ : Valid W ρ) (s1 : Satisfied b1 ρ) (s2 : Satisfied b2 ρ) (hf : Flag W "force_async_flow" ρ)
    (hin : InModel W ["nodes", "techs", "timesteps"] ρ) :
    (switch ρ = 0 ∨ switch ρ = 1) ∧ sumOver E "carriers" P.inn ρ ≤ (1 - switch ρ) * bigM ρ ∧
      sumOver E "carriers" P.out ρ ≤ switch ρ * bigM ρ := by
  have hi : ItemOf W (asyncFlowSwitchVar (V := V)) ρ := by
    have hl : Local W ["nodes", "techs", "timesteps"] (isTrue "force_async_flow") := fun d hd =>
      (by decide : ∀ d ∈ ["nodes", "techs"], d ∈ ["nodes", "techs", "timesteps"]) d (hw _ (by simp) d hd)
    exact (present_local hl).2 ⟨hin, (truth_isTrue _ ρ).2 hf⟩
  have hp : Present W ["nodes", "techs", "timesteps"] (built "async_flow_switch") ρ :=
    present_from hi fun σ hσ hi => (C79_exists hS hσ).2 hi
  obtain ⟨c1, c2, c3⟩ := (C79_values hS hρ).1 hi
  have hsw : valueAt E "async_flow_switch" ρ = some (switch ρ) := hS.decision.is.at ρ
  refine ⟨zero_or_one (c3 rfl) (c1 0 rfl) (c2 1 rfl), ?_, ?_⟩
  · refine single_le S.wf henum (by simp) h1 hρ (by plain_sides) (by plain_sides) (by plain_sides) hp s1
      (sum_comp S.coords hρ P.isInn.decision.is (by simp [flowInVar])) ?_
    rw [plain_val, val_bin, val_bin, val_num, val_comp, val_comp, hsw, hM.at, S.numbers.minus, S.numbers.times]
  · refine single_le S.wf henum (by simp) h2 hρ (by plain_sides) (by plain_sides) (by plain_sides) hp s2
      (sum_comp S.coords hρ P.isOut.decision.is (by simp [flowOutVar])) ?_
    rw [plain_val, val_bin, val_comp, val_comp, hsw, hM.at, S.numbers.times]

/-- C80: a technology with asynchronous flow never has inflow and outflow in the same time step, of any carriers. -/
theorem C80_async {switch bigM : Point → V} {b1 b2 : Arr (Option (Cell V))}
    (hS : Solves W E asyncFlowSwitchVar switch) (hM : Is E "bigM" [] bigM)
    (hw : Within W ["nodes", "techs"] ["force_async_flow"])
    (h1 : buildConstraint W E enum asyncFlowInMilp = .ok b1) (h2 : buildConstraint W E enum asyncFlowOutMilp = .ok b2)
    (hρ : Valid W ρ) (s1 : Satisfied b1 ρ) (s2 : Satisfied b2 ρ) (hf : Flag W "force_async_flow" ρ) :
    Still W P.inn ρ ∨ Still W P.out ρ := by
  by_cases hin : InModel W ["nodes", "techs", "timesteps"] ρ
  · obtain ⟨h3, h4, h5⟩ := async_bounds S henum P hS hM hw h1 h2 hρ s1 s2 hf hin
    have hv : ∀ l ∈ E.coords "carriers", Valid W (set ρ "carriers" l) := fun l hl =>
      set_valid hρ (by rw [← S.coords]; exact hl)
    rcases h3 with h | h <;> rw [h] at h4 h5
    · right
      rw [zero_mul] at h5
      have := sumOver_eq_zero_iff (fun l hl => P.isOut.nonneg' rfl (hv l hl)) h5
      rw [S.coords] at this
      exact this
    · left
      rw [sub_self, zero_mul] at h4
      have := sumOver_eq_zero_iff (fun l hl => P.isInn.nonneg' rfl (hv l hl)) h4
      rw [S.coords] at this
      exact this
  · exact .inl (still_outside P.isInn.decision hρ hin)

/-- C80, side effect: the flows of such a technology, summed over carriers, are at most `bigM` in every time step. -/
theorem C80_cut {switch bigM : Point → V} {b1 b2 : Arr (Option (Cell V))}
    (hS : Solves W E asyncFlowSwitchVar switch) (hM : Is E "bigM" [] bigM) (h0 : 0 ≤ bigM ρ)
    (hw : Within W ["nodes", "techs"] ["force_async_flow"])
    (h1 : buildConstraint W E enum asyncFlowInMilp = .ok b1) (h2 : buildConstraint W E enum asyncFlowOutMilp = .ok b2)
    (hρ : Valid W ρ) (s1 : Satisfied b1 ρ) (s2 : Satisfied b2 ρ) (hf : Flag W "force_async_flow" ρ) :
    sumOver E "carriers" P.inn ρ ≤ bigM ρ ∧ sumOver E "carriers" P.out ρ ≤ bigM ρ := by
  by_cases hin : InModel W ["nodes", "techs", "timesteps"] ρ
  · obtain ⟨h3, h4, h5⟩ := async_bounds S henum P hS hM hw h1 h2 hρ s1 s2 hf hin
    rcases h3 with h | h <;> rw [h] at h4 h5
    · rw [sub_zero, one_mul] at h4
      rw [zero_mul] at h5
      exact ⟨h4, h5.trans h0⟩
    · rw [sub_self, zero_mul] at h4
      rw [one_mul] at h5
      exact ⟨h4.trans h0, h5⟩
  · have h3 := still_outside P.isInn.decision hρ hin
    have h4 := still_outside P.isOut.decision hρ hin
    unfold Still at h3 h4
    rw [← S.coords] at h3 h4
    rw [sumOver_zero h3, sumOver_zero h4]
    exact ⟨h0, h0⟩

/-! ### Integer units -/

variable (U : Units W E) (K : UnitLimits W E)

omit S henum [IsStrictOrderedRing V] in
theorem Units.boughtWithin (U : Units W E) {sets : List String} (h : ∀ d ∈ ["nodes", "techs"], d ∈ sets) :
    ResultWithin W sets "purchased_units" := fun a ha d hd => h d (U.isBought.decision.within a ha d hd)

/-- C83, capacity: what is bought limits the flow capacity: it is at most the number of units times the largest capacity
(times `bigM` if there is none), and zero if nothing is bought. -/
theorem C83_capacity (hb : buildConstraint W E enum flowCapacityMaxPurchaseMilp = .ok b) (hρ : Valid W ρ)
    (hs : Satisfied b ρ) (hin : InModel W ["nodes", "techs", "carriers"] ρ) (he : Exists W "purchased_units" ρ) :
    (GivenAt W "flow_cap_max" ρ → P.cap ρ ≤ K.capMax ρ * U.bought ρ) ∧
    (¬ GivenAt W "flow_cap_max" ρ → P.cap ρ ≤ K.bigM ρ * U.bought ρ) ∧ (U.bought ρ = 0 → P.cap ρ = 0) := by
  have hcap : ∀ d ∈ (W.input "flow_cap_max").arr.dims, d ∈ ["nodes", "techs", "carriers"] := K.capWithin _ (by simp)
  have hloc : LocalCases W (flowCapacityMaxPurchaseMilp (V := V)) := by
    refine cases_local rfl rfl ?_
    intro p hp
    simp only [flowCapacityMaxPurchaseMilp, List.mem_cons, List.not_mem_nil, or_false] at hp
    rcases hp with rfl | rfl
    · exact hcap
    · exact hcap
  have hp : Present W ["nodes", "techs", "carriers"] (built "purchased_units") ρ :=
    present_built (U.boughtWithin (by decide)) hin he
  have hx : plain E (.comp "flow_cap") ρ = some (P.cap ρ) := by
    rw [plain_val, val_comp]; exact P.decisionCap.is.at ρ
  have hu : valueAt E "purchased_units" ρ = some (U.bought ρ) := U.isBought.decision.is.at ρ
  have g1 : GivenAt W "flow_cap_max" ρ → P.cap ρ ≤ K.capMax ρ * U.bought ρ := fun hg => by
    refine cases_le (c := flowCapacityMaxPurchaseMilp) S.wf henum (by simp [flowCapacityMaxPurchaseMilp]) (by rfl) hb hloc
      hρ hp (by simp only [flowCapacityMaxPurchaseMilp]; exact List.mem_cons_self ..) ((truth_given' _ ρ).2 hg)
      (by plain_sides) (by plain_sides) (by plain_sides) hs hx ?_
    rw [plain_val, val_bin, val_comp, val_comp, K.isCapMax.at, hu, S.numbers.times]
  have g2 : ¬ GivenAt W "flow_cap_max" ρ → P.cap ρ ≤ K.bigM ρ * U.bought ρ := fun hg => by
    refine cases_le (c := flowCapacityMaxPurchaseMilp) S.wf henum (by simp [flowCapacityMaxPurchaseMilp]) (by rfl) hb hloc
      hρ hp (by simp only [flowCapacityMaxPurchaseMilp]; exact List.mem_cons_of_mem _ (List.mem_cons_self ..))
      ((truth_no _ ρ).2 fun h => hg ((truth_given' _ ρ).1 h)) (by plain_sides) (by plain_sides) (by plain_sides) hs hx ?_
    rw [plain_val, val_bin, val_comp, val_comp, K.isBigM.at, hu, S.numbers.times]
  refine ⟨g1, g2, ?_⟩
  intro h0
  refine le_antisymm ?_ (P.capNonneg ρ hρ)
  by_cases hg : GivenAt W "flow_cap_max" ρ
  · have := g1 hg
    rwa [h0, mul_zero] at this
  · have := g2 hg
    rwa [h0, mul_zero] at this

/-- C83, storage: with a largest storage capacity, storage is at most that times the number of units. -/
theorem C83_storage (hb : buildConstraint W E enum storageCapacityMaxPurchaseMilp = .ok b) (hρ : Valid W ρ)
    (hs : Satisfied b ρ) (hin : InModel W ["nodes", "techs"] ρ) (he : Exists W "purchased_units" ρ)
    (hg : GivenAt W "storage_cap_max" ρ) : P.storageCap ρ ≤ K.storageMax ρ * U.bought ρ := by
  have hl : Local W ["nodes", "techs"] (both (built "purchased_units") (given "storage_cap_max")) :=
    ⟨U.boughtWithin (by decide), K.storageWithin _ (by simp)⟩
  refine single_le S.wf henum (by simp) hb hρ (by plain_sides) (by plain_sides) (by plain_sides)
    ((present_local hl).2 ⟨hin, (truth_both _ _ _).2 ⟨(truth_built' _ ρ).2 he, (truth_given' _ ρ).2 hg⟩⟩) hs ?_ ?_
  · rw [plain_val, val_comp]
    exact P.decisionStorageCap.is.at ρ
  · rw [plain_val, val_bin, val_comp, val_comp, K.isStorageMax.at,
      show valueAt E "purchased_units" ρ = some (U.bought ρ) from U.isBought.decision.is.at ρ, S.numbers.times]

/-- C83, smallest capacity: it holds for each unit bought, so not at all if nothing is bought; technologies without
integer units always have it. -/
theorem C83_minimum (hb : buildConstraint W E enum flowCapacityMinimum = .ok b) (hρ : Valid W ρ)
    (hs : Satisfied b ρ) (hin : InModel W ["nodes", "techs", "carriers"] ρ) (hg : GivenAt W "flow_cap_min" ρ) :
    (Exists W "purchased_units" ρ → K.capMin ρ * U.bought ρ ≤ P.cap ρ) ∧
    (¬ Exists W "purchased_units" ρ → K.capMin ρ ≤ P.cap ρ) := by
  have hbw : ResultWithin W ["nodes", "techs", "carriers"] "purchased_units" := U.boughtWithin (by decide)
  have hloc : LocalCases W (flowCapacityMinimum (V := V)) := by
    refine cases_local rfl rfl ?_
    intro p hp
    simp only [flowCapacityMinimum, List.mem_cons, List.not_mem_nil, or_false] at hp
    rcases hp with rfl | rfl
    · exact hbw
    · exact hbw
  have hp : Present W ["nodes", "techs", "carriers"] (given "flow_cap_min") ρ :=
    present_given (fun n hn => by rw [List.mem_singleton] at hn; subst hn; exact K.capWithin _ (by simp)) hin hg
  have hx : plain E (.comp "flow_cap") ρ = some (P.cap ρ) := by
    rw [plain_val, val_comp]; exact P.decisionCap.is.at ρ
  refine ⟨fun he => ?_, fun he => ?_⟩
  · refine cases_ge (c := flowCapacityMinimum) S.wf henum (by simp [flowCapacityMinimum]) (by rfl) hb hloc
      hρ hp (by simp only [flowCapacityMinimum]; exact List.mem_cons_of_mem _ (List.mem_cons_self ..))
      ((truth_built' _ ρ).2 he) (by plain_sides) (by plain_sides) (by plain_sides) hs hx ?_
    rw [plain_val, val_bin, val_comp, val_comp, K.isCapMin.at,
      show valueAt E "purchased_units" ρ = some (U.bought ρ) from U.isBought.decision.is.at ρ, S.numbers.times]
  · refine cases_ge (c := flowCapacityMinimum) S.wf henum (by simp [flowCapacityMinimum]) (by rfl) hb hloc
      hρ hp (by simp only [flowCapacityMinimum]; exact List.mem_cons_self ..)
      ((truth_no _ ρ).2 fun h => he ((truth_built' _ ρ).1 h)) (by plain_sides) (by plain_sides) (by plain_sides) hs hx ?_
    rw [plain_val, val_comp, K.isCapMin.at]

/-- Smallest sizes, per unit bought or, without integer units, at all. -/
theorem smallest {name size least : String} {top : Cond} {x y : Point → V}
    (hb : buildConstraint W E enum ⟨["nodes", "techs"], top, ⟨name, [
      (no (built "purchased_units"), .cmp (.comp size) ">=" (.comp least)),
      (built "purchased_units", .cmp (.comp size) ">=" (bin (.comp least) .times (.comp "purchased_units")))], [], []⟩⟩
      = .ok b) (hρ : Valid W ρ) (hs : Satisfied b ρ) (hx : valueAt E size ρ = some (x ρ)) (hy : valueAt E least ρ = some (y ρ))
    (hp : Present W ["nodes", "techs"] top ρ) :
    (Exists W "purchased_units" ρ → y ρ * U.bought ρ ≤ x ρ) ∧ (¬ Exists W "purchased_units" ρ → y ρ ≤ x ρ) := by
  have hbw : ResultWithin W ["nodes", "techs"] "purchased_units" := U.boughtWithin (by decide)
  have hloc : LocalCases W (V := V) ⟨["nodes", "techs"], top, ⟨name, [
      (no (built "purchased_units"), .cmp (.comp size) ">=" (.comp least)),
      (built "purchased_units", .cmp (.comp size) ">=" (bin (.comp least) .times (.comp "purchased_units")))], [], []⟩⟩ := by
    refine cases_local rfl rfl ?_
    intro p hp
    simp only [List.mem_cons, List.not_mem_nil, or_false] at hp
    rcases hp with rfl | rfl
    · exact hbw
    · exact hbw
  have hx : plain E (.comp size) ρ = some (x ρ) := by
    rw [plain_val, val_comp]; exact hx
  refine ⟨fun he => ?_, fun he => ?_⟩
  · refine cases_ge S.wf henum (by simp) (by rfl) hb hloc hρ hp (List.mem_cons_of_mem _ (List.mem_cons_self ..))
      ((truth_built' _ ρ).2 he) (by plain_sides) (by plain_sides) (by plain_sides) hs hx ?_
    rw [plain_val, val_bin, val_comp, val_comp, hy,
      show valueAt E "purchased_units" ρ = some (U.bought ρ) from U.isBought.decision.is.at ρ, S.numbers.times]
  · refine cases_ge S.wf henum (by simp) (by rfl) hb hloc hρ hp (List.mem_cons_self ..)
      ((truth_no _ ρ).2 fun h => he ((truth_built' _ ρ).1 h)) (by plain_sides) (by plain_sides) (by plain_sides) hs hx ?_
    rw [plain_val, val_comp, hy]

/-- C83, smallest storage: the same for storage capacity. -/
theorem C83_storage_minimum {least : Point → V} (hd : Is E "storage_cap_min" [] least)
    (hw : Within W ["nodes", "techs"] ["storage_cap_min"])
    (hb : buildConstraint W E enum storageCapacityMinimum = .ok b) (hρ : Valid W ρ) (hs : Satisfied b ρ)
    (hin : InModel W ["nodes", "techs"] ρ) (hg : GivenAt W "storage_cap_min" ρ) :
    (Exists W "purchased_units" ρ → least ρ * U.bought ρ ≤ P.storageCap ρ) ∧
    (¬ Exists W "purchased_units" ρ → least ρ ≤ P.storageCap ρ) :=
  smallest S henum U hb hρ hs (P.decisionStorageCap.is.at ρ) (hd.at ρ) (present_given hw hin hg)

/-- C83, smallest area: the same for the area that is used. -/
theorem C83_area_minimum {area least : Point → V} (ha : Decision W E "area_use" ["nodes", "techs"] area)
    (hd : Is E "area_use_min" [] least) (hw : Within W ["nodes", "techs"] ["area_use_min"])
    (hb : buildConstraint W E enum areaUseMinimum = .ok b) (hρ : Valid W ρ) (hs : Satisfied b ρ)
    (hin : InModel W ["nodes", "techs"] ρ) (hg : GivenAt W "area_use_min" ρ) :
    (Exists W "purchased_units" ρ → least ρ * U.bought ρ ≤ area ρ) ∧
    (¬ Exists W "purchased_units" ρ → least ρ ≤ area ρ) :=
  smallest S henum U hb hρ hs (ha.is.at ρ) (hd.at ρ) (present_given hw hin hg)

/-- C83, smallest source: the same for the capacity of sources of supply technologies. -/
theorem C83_source_minimum {least : Point → V} (hd : Is E "source_cap_min" [] least)
    (hw : Within W ["nodes", "techs"] ["base_tech", "source_cap_min"])
    (hb : buildConstraint W E enum sourceCapacityMinimum = .ok b) (hρ : Valid W ρ) (hs : Satisfied b ρ)
    (hin : InModel W ["nodes", "techs"] ρ) (ht : Text W "base_tech" "supply" ρ) (hg : GivenAt W "source_cap_min" ρ) :
    (Exists W "purchased_units" ρ → least ρ * U.bought ρ ≤ P.sourceCap ρ) ∧
    (¬ Exists W "purchased_units" ρ → least ρ ≤ P.sourceCap ρ) := by
  have hl : Local W ["nodes", "techs"] (both (isText "base_tech" "supply") (given "source_cap_min")) :=
    ⟨hw _ (by simp), hw _ (by simp)⟩
  exact smallest S henum U hb hρ hs (P.decisionSourceCap.is.at ρ) (hd.at ρ)
    ((present_local hl).2 ⟨hin, (truth_both _ _ _).2 ⟨(truth_isText _ _ _).2 ht, (truth_given' _ ρ).2 hg⟩⟩)

/-- C83, storage of units of a given size: it is the number bought times the size. -/
theorem C83_storage_units {size : Point → V} (hd : Is E "storage_cap_per_unit" [] size)
    (hw : Within W ["nodes", "techs"] ["storage_cap_per_unit"])
    (hb : buildConstraint W E enum storageCapacityUnitsMilp = .ok b) (hρ : Valid W ρ) (hs : Satisfied b ρ)
    (hst : Exists W "storage" ρ) (he : Exists W "purchased_units" ρ)
    (hg : GivenAt W "storage_cap_per_unit" ρ) : P.storageCap ρ = U.bought ρ * size ρ := by
  have hp : Present W ["nodes", "techs"] (.chain (built "storage") (.more .and (built "purchased_units") (.one .and (given
      "storage_cap_per_unit")))) ρ := by
    obtain ⟨g1, σ, g2, g3, g4, g5⟩ := (C79_exists P.isLevel hρ).1 hst
    have hst : Exists W "storage" σ := (C79_exists P.isLevel g2).2 ⟨g1, σ, g2, fun _ _ => rfl, g4, g5⟩
    have hsame : SameAlong ["nodes", "techs"] ρ σ := fun d hd =>
      g3 d ((by decide : ∀ d ∈ ["nodes", "techs"], d ∈ ["nodes", "techs", "timesteps"]) d hd)
    refine ⟨fun d hd => g1 d ((by decide : ∀ d ∈ ["nodes", "techs"], d ∈ ["nodes", "techs", "timesteps"]) d hd), σ, g2,
      hsame, g4, ?_⟩
    simp only [Truth, RestTruth, connect, truth_built', truth_given']
    refine ⟨⟨hst, ?_⟩, (givenAt_same (hw _ (by simp)) hsame).2 hg⟩
    obtain ⟨a, ha, hv⟩ := he
    exact ⟨a, ha, (at_congr a fun d hd => hsame d (U.isBought.decision.within a ha d hd)).trans hv⟩
  refine single_eq S.wf henum (by simp) hb hρ (by plain_sides) (by plain_sides) (by plain_sides) hp hs ?_ ?_
  · rw [plain_val, val_comp]
    exact P.decisionStorageCap.is.at ρ
  · rw [plain_val, val_bin, val_comp, val_comp, hd.at,
      show valueAt E "purchased_units" ρ = some (U.bought ρ) from U.isBought.decision.is.at ρ, S.numbers.times]

/-- C83, units that cannot be switched off: without integer dispatch the least outflow is a share of the capacity. -/
theorem C83_least_continuous (U : Units W E) (hb : buildConstraint W E enum flowOutMinContinuous = .ok b) (hρ : Valid W ρ)
    (hs : Satisfied b ρ) (hin : InModel W ["nodes", "techs", "carriers", "timesteps"] ρ)
    (he : ¬ Exists W "operating_units" ρ) (hg : GivenAt W "flow_out_min_relative" ρ) :
    P.cap ρ * P.hours ρ * K.share ρ ≤ P.out ρ := by
  have hrun := U.isRunning.decision.within
  have hl : Local W ["nodes", "techs", "carriers", "timesteps"] (both (given "flow_out_min_relative") (no (built
      "operating_units"))) :=
    ⟨K.shareWithin _ (by simp), fun a ha d hd => (by decide : ∀ d ∈ ["nodes", "techs", "timesteps"],
      d ∈ ["nodes", "techs", "carriers", "timesteps"]) d (U.isRunning.decision.within a ha d hd)⟩
  refine single_ge S.wf henum (by simp) hb hρ (by plain_sides) (by plain_sides) (by plain_sides)
    ((present_local hl).2 ⟨hin, (truth_both _ _ _).2 ⟨(truth_given' _ ρ).2 hg,
      (truth_no _ ρ).2 fun h => he ((truth_built' _ ρ).1 h)⟩⟩) hs ?_ ?_
  · rw [plain_val, val_comp]
    exact P.isOut.decision.is.at ρ
  · rw [plain_val, val_bin3, val_comp, val_comp, val_comp, P.decisionCap.is.at, P.isHours.at, K.isShare.at,
      S.numbers.times, S.numbers.times]

omit S henum [IsStrictOrderedRing V] in
theorem total_present (U : Units W E) (K : UnitLimits W E) (hρ : Valid W ρ) (he : Exists W "purchased_units" ρ)
    (hg : GivenAt W "purchased_units_max_systemwide" ρ) : Present W ["techs"] (both (built "purchased_units") (given
      "purchased_units_max_systemwide")) ρ := by
  obtain ⟨g1, σ, g2, g3, g4, g5⟩ := (C79_exists U.isBought hρ).1 he
  have hs : SameAlong ["techs"] ρ σ := fun d hd =>
    g3 d ((by decide : ∀ d ∈ ["techs"], d ∈ ["nodes", "techs"]) d hd)
  refine ⟨fun d hd => g1 d ((by decide : ∀ d ∈ ["techs"], d ∈ ["nodes", "techs"]) d hd), σ, g2, hs, g4,
    (truth_both _ _ _).2 ⟨(truth_built' _ σ).2 ?_, (truth_given' _ σ).2 ?_⟩⟩
  · exact (C79_exists U.isBought g2).2 ⟨g1, σ, g2, fun _ _ => rfl, g4, g5⟩
  · exact (givenAt_same (K.totalWithin _ (by simp)) hs).2 hg

/-- C83, all nodes: with a largest number of units given for a technology, no more are bought at all nodes together; a
smallest number then holds too. -/
theorem C83_total {b1 b2 : Arr (Option (Cell V))}
    (h1 : buildConstraint W E enum unitCapacityMaxSystemwideMilp = .ok b1)
    (h2 : buildConstraint W E enum unitCapacityMinSystemwideMilp = .ok b2) (hρ : Valid W ρ)
    (s1 : Satisfied b1 ρ) (s2 : Satisfied b2 ρ) (he : Exists W "purchased_units" ρ)
    (hg : GivenAt W "purchased_units_max_systemwide" ρ) :
    sumOver E "nodes" U.bought ρ ≤ K.totalMax ρ ∧ K.totalMin ρ ≤ sumOver E "nodes" U.bought ρ := by
  have hp := total_present U K hρ he hg
  have hx := sum_comp S.coords hρ (d := "nodes") U.isBought.decision.is (by simp [purchasedUnitsVar])
  refine ⟨?_, ?_⟩
  · refine single_le S.wf henum (by simp) h1 hρ (by plain_sides) (by plain_sides) (by plain_sides) hp s1 hx ?_
    rw [plain_val, val_comp, K.isTotalMax.at]
  · refine single_ge S.wf henum (by simp) h2 hρ (by plain_sides) (by plain_sides) (by plain_sides) hp s2 hx ?_
    rw [plain_val, val_comp, K.isTotalMin.at]

/-- C83 is false in one part: the smallest number of units at all nodes together has no effect unless a largest number is
given too. -/
theorem C83_total_ignored (K : UnitLimits W E)
    (hb : buildConstraint W E enum unitCapacityMinSystemwideMilp = .ok b) (hρ : Valid W ρ)
    (hg : ¬ GivenAt W "purchased_units_max_systemwide" ρ) : b.at ρ = none := by
  by_contra hne
  obtain ⟨_, σ, _, g3, _, g5⟩ := (single_cmp S.wf henum (by simp) hb hρ (by plain_sides) (by plain_sides)
    (by plain_sides)).1.1 hne
  rw [truth_both, truth_given'] at g5
  exact hg ((givenAt_same (K.totalWithin _ (by simp)) g3).1 g5.2)

/-- C83, running units: with at most one unit bought, the capacity that is available is the capacity when the unit runs
and zero when it does not. -/
theorem C83_available (K : UnitLimits W E) {avail : Point → V} (hA : Solves W E availableFlowCapVar avail) {b1 b2 b3 b4 : Arr (Option (Cell V))}
    (h1 : buildConstraint W E enum unitCommitmentMilp = .ok b1)
    (h2 : buildConstraint W E enum availableFlowCapContinuous = .ok b2)
    (h3 : buildConstraint W E enum availableFlowCapBinary = .ok b3)
    (h4 : buildConstraint W E enum availableFlowCapMaxBinaryContinuousSwitch = .ok b4) (hρ : Valid W ρ)
    (s1 : Satisfied b1 ρ) (s2 : Satisfied b2 ρ) (s3 : Satisfied b3 ρ) (s4 : Satisfied b4 ρ)
    (he : Exists W "operating_units" ρ) (ha : Exists W "available_flow_cap" ρ) (hone : U.bought ρ ≤ 1) :
    (U.running ρ = 0 ∨ U.running ρ = 1) ∧ (U.running ρ = 0 → avail ρ = 0) ∧ (U.running ρ = 1 → avail ρ = P.cap ρ) := by
  obtain ⟨r0, r1⟩ := C78_running S henum U h1 hρ s1 he
  have hint := ((C79_values U.isRunning hρ).1 ((C79_exists U.isRunning hρ).1 he)).2.2 rfl
  have hp : Present W ["nodes", "techs", "carriers", "timesteps"] (built "available_flow_cap") ρ :=
    present_from ((C79_exists hA hρ).1 ha) fun σ hσ hi => (C79_exists hA hσ).2 hi
  have hav : valueAt E "available_flow_cap" ρ = some (avail ρ) := hA.decision.is.at ρ
  have hru : valueAt E "operating_units" ρ = some (U.running ρ) := U.isRunning.decision.is.at ρ
  have hbo : valueAt E "purchased_units" ρ = some (U.bought ρ) := U.isBought.decision.is.at ρ
  have hx : plain E (.comp "available_flow_cap") ρ = some (avail ρ) := by rw [plain_val, val_comp, hav]
  have c1 : avail ρ ≤ P.cap ρ := by
    refine single_le S.wf henum (by simp) h2 hρ (by plain_sides) (by plain_sides) (by plain_sides) hp s2 hx ?_
    rw [plain_val, val_comp, P.decisionCap.is.at]
  have c2 : avail ρ ≤ K.capMax ρ * U.running ρ := by
    refine single_le S.wf henum (by simp) h3 hρ (by plain_sides) (by plain_sides) (by plain_sides) hp s3 hx ?_
    rw [plain_val, val_bin, val_comp, val_comp, K.isCapMax.at, hru, S.numbers.times]
  have c3 : P.cap ρ + (U.running ρ - U.bought ρ) * K.capMax ρ ≤ avail ρ := by
    refine single_ge S.wf henum (by simp) h4 hρ (by plain_sides) (by plain_sides) (by plain_sides) hp s4 hx ?_
    rw [plain_val, val_bin, val_bin, val_bin, val_comp, val_comp, val_comp, val_comp, P.decisionCap.is.at, K.isCapMax.at,
      hru, hbo, S.numbers.minus, S.numbers.times, S.numbers.plus]
  refine ⟨zero_or_one hint r0 (r1.trans hone), fun h => ?_, fun h => ?_⟩
  · rw [h, mul_zero] at c2
    exact le_antisymm c2 (hA.nonneg' rfl hρ)
  · have : U.bought ρ = 1 := le_antisymm hone (h ▸ r1)
    rw [h, this, sub_self, zero_mul, add_zero] at c3
    exact le_antisymm c1 c3

/-- C83, least outflow: units that run give out at least the given share of their capacity. -/
theorem C83_least (hb : buildConstraint W E enum flowOutMinMilp = .ok b) (hρ : Valid W ρ) (hs : Satisfied b ρ)
    {avail : Point → V} (hA : Solves W E availableFlowCapVar avail)
    (hw : Within W ["nodes", "techs", "carriers"] ["flow_cap_per_unit"])
    (hin : InModel W ["nodes", "techs", "carriers", "timesteps"] ρ)
    (ho : Exists W "flow_out" ρ) (he : Exists W "operating_units" ρ) (hg : GivenAt W "flow_out_min_relative" ρ) :
    (GivenAt W "flow_cap_per_unit" ρ → U.running ρ * P.hours ρ * U.perUnit ρ * K.share ρ ≤ P.out ρ) ∧
    (Exists W "available_flow_cap" ρ → avail ρ * P.hours ρ * K.share ρ ≤ P.out ρ) := by
  have hper : ∀ d ∈ (W.input "flow_cap_per_unit").arr.dims, d ∈ ["nodes", "techs", "carriers", "timesteps"] := fun d hd =>
    (by decide : ∀ d ∈ ["nodes", "techs", "carriers"], d ∈ ["nodes", "techs", "carriers", "timesteps"]) d
      (hw _ (by simp) d hd)
  have hloc : LocalCases W (flowOutMinMilp (V := V)) := by
    refine cases_local rfl rfl ?_
    intro p hp
    simp only [flowOutMinMilp, List.mem_cons, List.not_mem_nil, or_false] at hp
    rcases hp with rfl | rfl
    · exact hper
    · exact hA.decision.within
  have htop : Local W ["nodes", "techs", "carriers", "timesteps"] (.chain (built "flow_out") (.more .and (built
      "operating_units") (.one .and (given "flow_out_min_relative")))) :=
    ⟨P.isOut.decision.within, fun a ha d hd => (by decide : ∀ d ∈ ["nodes", "techs", "timesteps"],
      d ∈ ["nodes", "techs", "carriers", "timesteps"]) d (U.isRunning.decision.within a ha d hd),
      K.shareWithin _ (by simp)⟩
  have hp : Present W (flowOutMinMilp (V := V)).foreach (flowOutMinMilp (V := V)).top ρ := by
    refine (present_local htop).2 ⟨hin, ?_⟩
    simp only [Truth, RestTruth, connect, truth_built', truth_given']
    exact ⟨⟨ho, he⟩, hg⟩
  have hx : plain E (.comp "flow_out") ρ = some (P.out ρ) := by
    rw [plain_val, val_comp]; exact P.isOut.decision.is.at ρ
  refine ⟨fun hu => ?_, fun hu => ?_⟩
  · refine cases_ge (c := flowOutMinMilp) S.wf henum (by simp [flowOutMinMilp]) (by rfl) hb hloc
      hρ hp (by simp only [flowOutMinMilp]; exact List.mem_cons_self ..) ((truth_given' _ ρ).2 hu)
      (by plain_sides) (by plain_sides) (by plain_sides) hs hx ?_
    rw [plain_val, val_bin4, val_comp, val_comp, val_comp, val_comp, U.isPerUnit.at, P.isHours.at, K.isShare.at,
      show valueAt E "operating_units" ρ = some (U.running ρ) from U.isRunning.decision.is.at ρ,
      S.numbers.times, S.numbers.times, S.numbers.times]
  · refine cases_ge (c := flowOutMinMilp) S.wf henum (by simp [flowOutMinMilp]) (by rfl) hb hloc
      hρ hp (by simp only [flowOutMinMilp]; exact List.mem_cons_of_mem _ (List.mem_cons_self ..))
      ((truth_built' _ ρ).2 hu) (by plain_sides) (by plain_sides) (by plain_sides) hs hx ?_
    rw [plain_val, val_bin3, val_comp, val_comp, val_comp, P.isHours.at, K.isShare.at,
      show valueAt E "available_flow_cap" ρ = some (avail ρ) from hA.decision.is.at ρ, S.numbers.times, S.numbers.times]

omit S henum [Field V] [LinearOrder V] [IsStrictOrderedRing V] in
/-- A condition on any node. -/
theorem truth_any_node {n : String} (hρ : Valid W ρ) :
    Truth W ρ (.atom (.anyResult n ["nodes"])) ↔ ∃ l ∈ W.coords "nodes", Exists W n (set ρ "nodes" l) := by
  simp only [Truth, LeafTruth]
  constructor
  · rintro ⟨a, ha, σ, ⟨h1, h2⟩, hv⟩
    by_cases hd : "nodes" ∈ a.dims
    · refine ⟨σ "nodes", h2 _ (by simp [hd]), a, ha, ?_⟩
      rw [← hv]
      apply at_congr
      intro d hd'
      by_cases hx : d = "nodes"
      · subst hx
        simp [Expr.set]
      · rw [show set ρ "nodes" (σ "nodes") d = ρ d by simp [Expr.set, hx]]
        exact (h1 d (by simp [hx])).symm
    · refine ⟨ρ "nodes", hρ _, a, ha, ?_⟩
      rw [← hv]
      apply at_congr
      intro d hd'
      have hx : d ≠ "nodes" := fun h => hd (h ▸ hd')
      rw [show set ρ "nodes" (ρ "nodes") d = ρ d by simp [Expr.set, hx]]
      exact (h1 d (by simp [hx])).symm
  · rintro ⟨l, hl, a, ha, hv⟩
    refine ⟨a, ha, fun d => if d ∈ a.dims.filter (fun d => ["nodes"].contains d) then l else ρ d, ⟨?_, ?_⟩, ?_⟩
    · intro d hd
      simp only [if_neg hd]
    · intro d hd
      simp only [if_pos hd]
      have : d = "nodes" := by simpa using (List.mem_filter.1 hd).2
      rw [this]
      exact hl
    · rw [← hv]
      apply at_congr
      intro d hd
      by_cases hx : d = "nodes"
      · subst hx
        simp [Expr.set, hd]
      · simp [Expr.set, hx]

/-- C83, capacity of all nodes: the smallest total capacity holds for each unit bought: with none bought it does not hold
at all, with several it is multiplied. -/
theorem C83_total_capacity (hb : buildConstraint W E enum flowCapacitySystemwideMinMilp = .ok b) (hρ : Valid W ρ)
    (hs : Satisfied b ρ) (hin : InModel W ["techs", "carriers"] ρ) (hg : GivenAt W "flow_cap_min_systemwide" ρ) :
    ((∃ l ∈ W.coords "nodes", Exists W "purchased_units" (set ρ "nodes" l)) →
      K.capTotalMin ρ * sumOver E "nodes" U.bought ρ ≤ sumOver E "nodes" P.cap ρ) ∧
    ((∀ l ∈ W.coords "nodes", ¬ Exists W "purchased_units" (set ρ "nodes" l)) →
      K.capTotalMin ρ ≤ sumOver E "nodes" P.cap ρ) := by
  have hany : Local W ["techs", "carriers"] (.atom (.anyResult "purchased_units" ["nodes"])) := fun a ha d hd =>
    (by decide : ∀ d ∈ ["nodes", "techs"], d ∈ ["techs", "carriers"] ∨ d ∈ ["nodes"]) d
      (U.isBought.decision.within a ha d hd)
  have hloc : LocalCases W (flowCapacitySystemwideMinMilp (V := V)) := by
    refine cases_local rfl rfl ?_
    intro p hp
    simp only [flowCapacitySystemwideMinMilp, List.mem_cons, List.not_mem_nil, or_false] at hp
    rcases hp with rfl | rfl
    · exact hany
    · exact hany
  have hp : Present W (flowCapacitySystemwideMinMilp (V := V)).foreach (flowCapacitySystemwideMinMilp (V := V)).top ρ :=
    present_given K.capTotalWithin hin hg
  have hx := sum_comp S.coords hρ (d := "nodes") P.decisionCap.is (by simp)
  have hy : val E (fun n => List.lookup n []) (.sum (.comp "purchased_units") ["nodes"]) ρ =
      some (sumOver E "nodes" U.bought ρ) := by
    have := sum_comp S.coords hρ (d := "nodes") U.isBought.decision.is (by simp [purchasedUnitsVar])
    rw [plain_val] at this
    exact this
  refine ⟨fun he => ?_, fun he => ?_⟩
  · refine cases_ge (c := flowCapacitySystemwideMinMilp) S.wf henum (by simp [flowCapacitySystemwideMinMilp]) (by rfl) hb
      hloc hρ hp (by simp only [flowCapacitySystemwideMinMilp]; exact List.mem_cons_self ..)
      ((truth_any_node hρ).2 he) (by plain_sides) (by plain_sides) (by plain_sides) hs hx ?_
    rw [plain_val, val_bin, val_comp, K.isCapTotalMin.at, hy, S.numbers.times]
  · refine cases_ge (c := flowCapacitySystemwideMinMilp) S.wf henum (by simp [flowCapacitySystemwideMinMilp]) (by rfl) hb
      hloc hρ hp
      (by simp only [flowCapacitySystemwideMinMilp]; exact List.mem_cons_of_mem _ (List.mem_cons_self ..))
      ((truth_no _ ρ).2 fun h => by
        obtain ⟨l, hl, hx⟩ := (truth_any_node hρ).1 h
        exact he l hl hx) (by plain_sides) (by plain_sides) (by plain_sides) hs hx ?_
    rw [plain_val, val_comp, K.isCapTotalMin.at]

end

end

end BaseMath
end Calliope
