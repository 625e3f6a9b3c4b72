import Verif.Proofs.Coarse
import Verif.Props.Limits
import Verif.Props.Costs
import Verif.Props.BaseBalance

/-!
# A plan, added up over coarser time steps
-/

namespace Calliope
namespace Coarse

open Grid Infix Expr Expand Build Where BaseMath Time

theorem outAt {W : Where.Env} {E : Expr.Env Rat} (P : Plant W E) (ρ : Point) :
    BaseMath.valueAt E "flow_out" ρ = some (P.out ρ) := P.isOut.decision.is.at ρ
theorem innAt {W : Where.Env} {E : Expr.Env Rat} (P : Plant W E) (ρ : Point) :
    BaseMath.valueAt E "flow_in" ρ = some (P.inn ρ) := P.isInn.decision.is.at ρ
theorem sourceAt {W : Where.Env} {E : Expr.Env Rat} (P : Plant W E) (ρ : Point) :
    BaseMath.valueAt E "source_use" ρ = some (P.source ρ) := P.isSource.decision.is.at ρ

section
variable {W W' : Where.Env} {E E' : Expr.Env Rat} {steps : Label → List Label} {pw : Rat → Rat → Rat}
  {enum : List String → List String} {ρ : Point} {b b' : Arr (Option (Cell Rat))}
  (S : Setting W E pw) (S' : Setting W' E' pw) (henum : Traverses enum) (C : Coarser W W' steps)
  {P : Plant W E} {P' : Plant W' E'} (T : Totals steps P P')

include S S' henum C T

/-- C114, outflow: within the capacity in every time step, so in the interval. -/
theorem C114_outflow (hk : Alike W W' "carrier_out")
    (hw : Within W ["nodes", "techs", "carriers", "timesteps"] ["carrier_out"])
    (hb : buildConstraint W E enum flowOutMax = .ok b) (hb' : buildConstraint W' E' enum flowOutMax = .ok b')
    (hρ : Valid W' ρ) (R : Filled W W' E E' steps "timestep_resolution" ρ)
    (R' : Even W W' E E' steps ["flow_out_parasitic_eff"] ρ) (h : Throughout b steps ρ) : Satisfied b' ρ := by
  have hw' : Within W' ["nodes", "techs", "carriers", "timesteps"] ["carrier_out"] := by
    intro n hn
    simp only [List.mem_singleton] at hn
    subst hn
    rw [hk.1]
    exact hw _ (by simp)
  obtain ⟨h1, h2⟩ := single_reads S'.wf henum (by simp) hb' (local_given hw') hρ
    (by simp [subRefs, subRefsRest, bin3]) (by simp [sliceRefs, sliceRefsRest, bin3]) (by plain_sides) (by plain_sides)
  by_cases hn : b'.at ρ = none
  · exact satisfied_none hn
  obtain ⟨hin, ht⟩ := h1.1 hn
  have e := h2 hin ht
  rw [plain_val, plain_val, val_bin3, val_comp, val_comp, val_comp, val_comp, outAt P', P'.capIs.at,
    P'.isHours.at, P'.isParasitic.at, S'.numbers.times, S'.numbers.times] at e
  rw [satisfied_iff_le e, T.out ρ hρ, R.added C (by decide) hρ P.isHours P'.isHours,
    mul_comm (P'.cap ρ), mul_assoc, ← sumSteps_mul]
  refine sumSteps_le ?_
  intro t ht'
  have hv := C.valid hρ ht'
  obtain ⟨_, g2⟩ := single_reads S.wf henum (by simp) hb (local_given hw) hv
    (by simp [subRefs, subRefsRest, bin3]) (by simp [sliceRefs, sliceRefsRest, bin3]) (by plain_sides) (by plain_sides)
  have e' := g2 (C.inModel hρ hin ht') ((truth_given' _ _).2 ((hk.given t).1 ((truth_given' _ _).1 ht)))
  rw [plain_val, plain_val, val_bin3, val_comp, val_comp, val_comp, val_comp, outAt P, P.capIs.at,
    P.isHours.at, P.isParasitic.at, S.numbers.times, S.numbers.times] at e'
  have := satisfied_le (h t ht') e'
  rw [T.cap ρ hρ t ht', R'.kept C (by simp) (by decide) hρ P.isParasitic P'.isParasitic ht']
  linarith

/-- C114, inflow. -/
theorem C114_inflow (hk : Alike W W' "carrier_in")
    (hw : Within W ["nodes", "techs", "carriers", "timesteps"] ["carrier_in"])
    (hb : buildConstraint W E enum flowInMax = .ok b) (hb' : buildConstraint W' E' enum flowInMax = .ok b')
    (hρ : Valid W' ρ) (R : Filled W W' E E' steps "timestep_resolution" ρ)
    (h : Throughout b steps ρ) : Satisfied b' ρ := by
  have hw' : Within W' ["nodes", "techs", "carriers", "timesteps"] ["carrier_in"] := by
    intro n hn
    simp only [List.mem_singleton] at hn
    subst hn
    rw [hk.1]
    exact hw _ (by simp)
  obtain ⟨h1, h2⟩ := single_reads S'.wf henum (by simp) hb' (local_given hw') hρ
    (by simp [subRefs, subRefsRest, bin]) (by simp [sliceRefs, sliceRefsRest, bin]) (by plain_sides) (by plain_sides)
  by_cases hn : b'.at ρ = none
  · exact satisfied_none hn
  obtain ⟨hin, ht⟩ := h1.1 hn
  have e := h2 hin ht
  rw [plain_val, plain_val, val_bin, val_comp, val_comp, val_comp, innAt P', P'.capIs.at,
    P'.isHours.at, S'.numbers.times] at e
  rw [satisfied_iff_le e, T.inn ρ hρ, R.added C (by decide) hρ P.isHours P'.isHours,
    mul_comm (P'.cap ρ), ← sumSteps_mul]
  refine sumSteps_le ?_
  intro t ht'
  have hv := C.valid hρ ht'
  obtain ⟨_, g2⟩ := single_reads S.wf henum (by simp) hb (local_given hw) hv
    (by simp [subRefs, subRefsRest, bin]) (by simp [sliceRefs, sliceRefsRest, bin]) (by plain_sides) (by plain_sides)
  have e' := g2 (C.inModel hρ hin ht') ((truth_given' _ _).2 ((hk.given t).1 ((truth_given' _ _).1 ht)))
  rw [plain_val, plain_val, val_bin, val_comp, val_comp, val_comp, innAt P, P.capIs.at,
    P.isHours.at, S.numbers.times] at e'
  have := satisfied_le (h t ht') e'
  rw [T.cap ρ hρ t ht']
  linarith

/-- C114, least outflow. -/
theorem C114_least {least least' : Point → Rat} (hl : Is E "flow_out_min_relative" [] least)
    (hl' : Is E' "flow_out_min_relative" [] least')
    (hw : Within W ["nodes", "techs", "carriers", "timesteps"] ["flow_out_min_relative"])
    (hw' : Within W' ["nodes", "techs", "carriers", "timesteps"] ["flow_out_min_relative"])
    (hb : buildConstraint W E enum flowOutMin = .ok b) (hb' : buildConstraint W' E' enum flowOutMin = .ok b')
    (hρ : Valid W' ρ) (R : Filled W W' E E' steps "timestep_resolution" ρ)
    (R' : Even W W' E E' steps ["flow_out_min_relative"] ρ) (h : Throughout b steps ρ) : Satisfied b' ρ := by
  obtain ⟨h1, h2⟩ := single_reads S'.wf henum (by simp) hb' (local_given hw') hρ
    (by simp [subRefs, subRefsRest, bin3]) (by simp [sliceRefs, sliceRefsRest, bin3]) (by plain_sides) (by plain_sides)
  by_cases hn : b'.at ρ = none
  · exact satisfied_none hn
  obtain ⟨hin, ht⟩ := h1.1 hn
  have e := h2 hin ht
  rw [plain_val, plain_val, val_bin3, val_comp, val_comp, val_comp, val_comp, outAt P', P'.capIs.at,
    P'.isHours.at, hl'.at, S'.numbers.times, S'.numbers.times] at e
  rw [satisfied_iff_ge e, T.out ρ hρ, R.added C (by decide) hρ P.isHours P'.isHours,
    mul_comm (P'.cap ρ), mul_assoc, ← sumSteps_mul]
  refine sumSteps_le ?_
  intro t ht'
  have hv := C.valid hρ ht'
  obtain ⟨_, g2⟩ := single_reads S.wf henum (by simp) hb (local_given hw) hv
    (by simp [subRefs, subRefsRest, bin3]) (by simp [sliceRefs, sliceRefsRest, bin3]) (by plain_sides) (by plain_sides)
  have e' := g2 (C.inModel hρ hin ht') ((truth_given' _ _).2
    ((R'.given C (by simp) (by decide) hρ ht').1 ((truth_given' _ _).1 ht)))
  rw [plain_val, plain_val, val_bin3, val_comp, val_comp, val_comp, val_comp, outAt P, P.capIs.at,
    P.isHours.at, hl.at, S.numbers.times, S.numbers.times] at e'
  have := satisfied_ge (h t ht') e'
  rw [T.cap ρ hρ t ht', R'.kept C (by simp) (by decide) hρ hl hl' ht']
  linarith

/-- C114, sources: their use is within their capacity. -/
theorem C114_source_max (hr : W'.result "source_cap" = W.result "source_cap")
    (hb : buildConstraint W E enum sourceMax = .ok b) (hb' : buildConstraint W' E' enum sourceMax = .ok b')
    (hρ : Valid W' ρ) (R : Filled W W' E E' steps "timestep_resolution" ρ)
    (h : Throughout b steps ρ) : Satisfied b' ρ := by
  have hd := P.decisionSourceCap
  have hd' := P'.decisionSourceCap
  have wid : ∀ {U : Where.Env}, ResultWithin U ["nodes", "techs"] "source_cap" →
      ResultWithin U ["nodes", "techs", "timesteps"] "source_cap" := fun h a ha d hd =>
    (by decide : ∀ d ∈ ["nodes", "techs"], d ∈ ["nodes", "techs", "timesteps"]) d (h a ha d hd)
  obtain ⟨h1, h2⟩ := single_reads S'.wf henum (by simp) hb' (local_built (wid hd'.within)) hρ
    (by simp [subRefs, subRefsRest, bin]) (by simp [sliceRefs, sliceRefsRest, bin]) (by plain_sides) (by plain_sides)
  by_cases hn : b'.at ρ = none
  · exact satisfied_none hn
  obtain ⟨hin, ht⟩ := h1.1 hn
  have e := h2 hin ht
  rw [plain_val, plain_val, val_bin, val_comp, val_comp, val_comp, sourceAt P', hd'.is.at,
    P'.isHours.at, S'.numbers.times] at e
  rw [satisfied_iff_le e, T.source ρ hρ, R.added C (by decide) hρ P.isHours P'.isHours,
    ← sumSteps_mul]
  refine sumSteps_le ?_
  intro t ht'
  have hv := C.valid hρ ht'
  obtain ⟨_, g2⟩ := single_reads S.wf henum (by simp) hb (local_built (wid hd.within)) hv
    (by simp [subRefs, subRefsRest, bin]) (by simp [sliceRefs, sliceRefsRest, bin]) (by plain_sides) (by plain_sides)
  have hex : Exists W "source_cap" (set ρ "timesteps" t) := by
    obtain ⟨a, ha, hat⟩ := (truth_built' _ _).1 ht
    rw [hr] at ha
    refine ⟨a, ha, ?_⟩
    rw [at_step (fun hm => absurd (hd.within a ha _ hm) (by decide))]
    exact hat
  have e' := g2 (C.inModel hρ hin ht') ((truth_built' _ _).2 hex)
  rw [plain_val, plain_val, val_bin, val_comp, val_comp, val_comp, sourceAt P, hd.is.at,
    P.isHours.at, S.numbers.times] at e'
  have := satisfied_le (h t ht') e'
  rw [T.sourceCap ρ hρ t ht']
  linarith

end

section
variable {W W' : Where.Env} {E E' : Expr.Env Rat} {steps : Label → List Label} {pw : Rat → Rat → Rat} {ρ : Point}
  (S : Setting W E pw) (S' : Setting W' E' pw) (C : Coarser W W' steps)

theorem swap {d : String} (hd : d ≠ "timesteps") (ρ : Point) (t l : Label) :
    set (set ρ d l) "timesteps" t = set (set ρ "timesteps" t) d l := by
  funext x
  unfold Expr.set
  by_cases h1 : x = "timesteps"
  · subst h1
    simp [Ne.symm hd]
  · simp [h1]

include S S' C in
theorem sumOver_kept {d : String} (hd : d ≠ "timesteps") {f f' : Point → Rat} (hk : Kept W' steps f f')
    (hρ : Valid W' ρ) {t : Label} (ht : t ∈ steps (ρ "timesteps")) :
    sumOver E' d f' ρ = sumOver E d f (set ρ "timesteps" t) := by
  unfold sumOver
  rw [S'.coords, S.coords, C.others d hd]
  congr 1
  apply List.map_congr_left
  intro l hl
  have hv : Valid W' (set ρ d l) := set_valid hρ (by rw [C.others d hd]; exact hl)
  have hs : (set ρ d l) "timesteps" = ρ "timesteps" := by simp [Expr.set, Ne.symm hd]
  rw [hk _ hv t (by rw [hs]; exact ht), swap hd]

include S S' C in
theorem scale_kept {unit : String} (hu : Alike W W' unit) {area area' cap cap' : Point → Rat}
    (ha : Kept W' steps area area') (hc : Kept W' steps cap cap') (hρ : Valid W' ρ) {t : Label}
    (ht : t ∈ steps (ρ "timesteps")) :
    scaleOf W' E' unit area' cap' ρ = scaleOf W E unit area cap (set ρ "timesteps" t) := by
  unfold scaleOf
  simp only [hu.text (ρ := ρ) t]
  rw [ha ρ hρ t ht, sumOver_kept S S' C (by decide) hc hρ ht]

include C in
theorem taking_kept {F : Efficiencies E} {F' : Efficiencies E'} (hk : Alike W W' "base_tech")
    (he : Even W W' E E' steps ["flow_in_eff", "flow_in_eff_per_distance", "distance"] ρ) (hρ : Valid W' ρ)
    {t : Label} (ht : t ∈ steps (ρ "timesteps")) : F'.taking W' pw ρ = F.taking W pw (set ρ "timesteps" t) := by
  unfold Efficiencies.taking
  simp only [hk.text (ρ := ρ) t]
  rw [he.kept C (by simp) (by decide) hρ F.isInn F'.isInn ht,
    he.kept C (by simp) (by decide) hρ F.isInnPerDistance F'.isInnPerDistance ht,
    he.kept C (by simp) (by decide) hρ F.isDistance F'.isDistance ht]

include C in
theorem giving_kept {F : Efficiencies E} {F' : Efficiencies E'} (hk : Alike W W' "base_tech")
    (he : Even W W' E E' steps ["flow_out_eff", "flow_out_parasitic_eff", "flow_out_eff_per_distance", "distance"] ρ)
    (hρ : Valid W' ρ) {t : Label} (ht : t ∈ steps (ρ "timesteps")) :
    F'.giving W' pw ρ = F.giving W pw (set ρ "timesteps" t) := by
  unfold Efficiencies.giving
  simp only [hk.text (ρ := ρ) t]
  rw [he.kept C (by simp) (by decide) hρ F.isOut F'.isOut ht,
    he.kept C (by simp) (by decide) hρ F.isParasitic F'.isParasitic ht,
    he.kept C (by simp) (by decide) hρ F.isOutPerDistance F'.isOutPerDistance ht,
    he.kept C (by simp) (by decide) hρ F.isDistance F'.isDistance ht]

end

section
variable {W W' : Where.Env} {E E' : Expr.Env Rat} {steps : Label → List Label} {pw : Rat → Rat → Rat}
  {enum : List String → List String} {ρ : Point} {b b' : Arr (Option (Cell Rat))}
  (S : Setting W E pw) (S' : Setting W' E' pw) (henum : Traverses enum) (C : Coarser W W' steps)
  {P : Plant W E} {P' : Plant W' E'} (T : Totals steps P P') {N : Needs W E} {N' : Needs W' E'}
  (ha : Kept W' steps N.area N'.area)

include S S' henum C T ha

/-- C114, demand: it is met in every time step, so in the interval; where it may be less, it is within the largest. -/
theorem C114_demand (F : Efficiencies E) (F' : Efficiencies E') {used used' : Point → Rat}
    (hd : Defines W E enum flowInIncEff used)
    (hd' : Defines W' E' enum flowInIncEff used') (hb : buildConstraint W E enum balanceDemand = .ok b)
    (hb' : buildConstraint W' E' enum balanceDemand = .ok b') (hρ : Valid W' ρ)
    (hin : InModel W' ["nodes", "techs", "carriers", "timesteps"] ρ) (hk : Text W' "base_tech" "demand" ρ)
    (hu : UnitKnown W' "sink_unit" ρ) (hkind : Alike W W' "base_tech") (hunit : Alike W W' "sink_unit")
    (he : Even W W' E E' steps ["flow_in_eff", "flow_in_eff_per_distance", "distance"] ρ)
    (hg : Filled W W' E E' steps "sink_use_equals" ρ ∨ (Empty W W' E E' steps "sink_use_equals" ρ ∧
      (Filled W W' E E' steps "sink_use_max" ρ ∨ Empty W W' E E' steps "sink_use_max" ρ)))
    (h : Throughout b steps ρ) : Satisfied b' ρ := by
  have fine : ∀ t ∈ steps (ρ "timesteps"), _ := fun t ht =>
    (C84_demand S henum P N F hd hb (C.valid hρ ht) (C.inModel hρ hin ht) ((hkind.text t).1 hk)
      (by
        unfold UnitKnown at hu ⊢
        rw [← hunit.text t, ← hunit.text t, ← hunit.text t]
        exact hu)).1 (h t ht)
  have tot : ∀ amount : Point → Rat, (sumSteps (steps (ρ "timesteps")) (fun σ => P.inn σ * F.taking W pw σ) ρ =
      P'.inn ρ * F'.taking W' pw ρ) ∧
      sumSteps (steps (ρ "timesteps")) (fun σ => amount σ * scaleOf W E "sink_unit" N.area P.cap σ) ρ =
        sumSteps (steps (ρ "timesteps")) amount ρ * scaleOf W' E' "sink_unit" N'.area P'.cap ρ := by
    intro amount
    rw [T.inn ρ hρ, ← sumSteps_mul, ← sumSteps_mul]
    constructor
    · refine sumSteps_congr ?_
      intro t ht
      rw [taking_kept C hkind he hρ ht]
    · refine sumSteps_congr ?_
      intro t ht
      rw [scale_kept S S' C hunit ha T.cap hρ ht]
  refine (C84_demand S' henum P' N' F' hd' hb' hρ hin hk hu).2 ?_
  rcases hg with R | ⟨R, hm⟩
  · obtain ⟨g', g⟩ := R.given C hρ
    refine ⟨fun _ => ?_, fun h' => absurd g' h'⟩
    rw [R.added C (by decide) hρ N.isSinkEquals N'.isSinkEquals, ← (tot N.sinkEquals).1, ← (tot N.sinkEquals).2]
    exact sumSteps_congr (fun t ht => (fine t ht).1 (g t ht))
  · obtain ⟨g', g⟩ := R.given C hρ
    refine ⟨fun h' => absurd h' g', fun _ hmax => ?_⟩
    rcases hm with R2 | R2
    · obtain ⟨_, k⟩ := R2.given C hρ
      rw [R2.added C (by decide) hρ N.isSinkMax N'.isSinkMax, ← (tot N.sinkMax).1, ← (tot N.sinkMax).2]
      exact sumSteps_le (fun t ht => (fine t ht).2 (g t ht) (k t ht))
    · exact absurd hmax (R2.given C hρ).1

/-- C114, least demand. -/
theorem C114_demand_least (F : Efficiencies E) (F' : Efficiencies E') {used used' : Point → Rat}
    (hd : Defines W E enum flowInIncEff used)
    (hd' : Defines W' E' enum flowInIncEff used') (hb : buildConstraint W E enum balanceDemandMinUse = .ok b)
    (hb' : buildConstraint W' E' enum balanceDemandMinUse = .ok b') (hρ : Valid W' ρ)
    (hin : InModel W' ["nodes", "techs", "carriers", "timesteps"] ρ) (hk : Text W' "base_tech" "demand" ρ)
    (hu : UnitKnown W' "sink_unit" ρ) (hkind : Alike W W' "base_tech") (hunit : Alike W W' "sink_unit")
    (he : Even W W' E E' steps ["flow_in_eff", "flow_in_eff_per_distance", "distance"] ρ)
    (hg : Filled W W' E E' steps "sink_use_min" ρ) (hn : Empty W W' E E' steps "sink_use_equals" ρ)
    (h : Throughout b steps ρ) : Satisfied b' ρ := by
  obtain ⟨g', g⟩ := hg.given C hρ
  obtain ⟨k', k⟩ := hn.given C hρ
  rw [C84_demand_least S' henum P' N' F' hd' hb' hρ hin hk hu g' k',
    hg.added C (by decide) hρ N.isSinkMin N'.isSinkMin, T.inn ρ hρ, ← sumSteps_mul, ← sumSteps_mul]
  refine sumSteps_le ?_
  intro t ht
  rw [scale_kept S S' C hunit ha T.cap hρ ht, taking_kept (F := F) C hkind he hρ ht]
  refine (C84_demand_least S henum P N F hd hb (C.valid hρ ht) (C.inModel hρ hin ht) ((hkind.text t).1 hk) ?_
    (g t ht) (k t ht)).1 (h t ht)
  unfold UnitKnown at hu ⊢
  rw [← hunit.text t, ← hunit.text t, ← hunit.text t]
  exact hu

/-- C114, sources: what is taken is what there is. -/
theorem C114_source (hb : buildConstraint W E enum sourceAvailabilitySupply = .ok b)
    (hb' : buildConstraint W' E' enum sourceAvailabilitySupply = .ok b') (hρ : Valid W' ρ)
    (hin : InModel W' ["nodes", "techs", "timesteps"] ρ) (hex' : Exists W' "source_use" ρ)
    (hex : ∀ t ∈ steps (ρ "timesteps"), Exists W "source_use" (set ρ "timesteps" t))
    (hu : UnitKnown W' "source_unit" ρ) (hunit : Alike W W' "source_unit")
    (hg : Filled W W' E E' steps "source_use_equals" ρ ∨ (Empty W W' E E' steps "source_use_equals" ρ ∧
      (Filled W W' E E' steps "source_use_max" ρ ∨ Empty W W' E E' steps "source_use_max" ρ)))
    (h : Throughout b steps ρ) : Satisfied b' ρ := by
  have fine : ∀ t ∈ steps (ρ "timesteps"), _ := fun t ht =>
    (C84_source S henum P N hb (C.valid hρ ht) (C.inModel hρ hin ht) (hex t ht)
      (by
        unfold UnitKnown at hu ⊢
        rw [← hunit.text t, ← hunit.text t, ← hunit.text t]
        exact hu)).1 (h t ht)
  have tot : ∀ amount : Point → Rat,
      sumSteps (steps (ρ "timesteps")) (fun σ => amount σ * scaleOf W E "source_unit" N.area P.cap σ) ρ =
        sumSteps (steps (ρ "timesteps")) amount ρ * scaleOf W' E' "source_unit" N'.area P'.cap ρ := by
    intro amount
    rw [← sumSteps_mul]
    refine sumSteps_congr ?_
    intro t ht
    rw [scale_kept S S' C hunit ha T.cap hρ ht]
  refine (C84_source S' henum P' N' hb' hρ hin hex' hu).2 ?_
  rw [T.source ρ hρ]
  rcases hg with R | ⟨R, hm⟩
  · obtain ⟨g', g⟩ := R.given C hρ
    refine ⟨fun _ => ?_, fun h' => absurd g' h'⟩
    rw [R.added C (by decide) hρ N.isSourceEquals N'.isSourceEquals, ← tot N.sourceEquals]
    exact sumSteps_congr (fun t ht => (fine t ht).1 (g t ht))
  · obtain ⟨g', g⟩ := R.given C hρ
    refine ⟨fun h' => absurd h' g', fun _ hmax => ?_⟩
    rcases hm with R2 | R2
    · obtain ⟨_, k⟩ := R2.given C hρ
      rw [R2.added C (by decide) hρ N.isSourceMax N'.isSourceMax, ← tot N.sourceMax]
      exact sumSteps_le (fun t ht => (fine t ht).2 (g t ht) (k t ht))
    · exact absurd hmax (R2.given C hρ).1

/-- C114, least use of a source. -/
theorem C114_source_least (hb : buildConstraint W E enum balanceSupplyMinUse = .ok b)
    (hb' : buildConstraint W' E' enum balanceSupplyMinUse = .ok b') (hρ : Valid W' ρ)
    (hin : InModel W' ["nodes", "techs", "timesteps"] ρ) (hk : Text W' "base_tech" "supply" ρ)
    (hu : UnitKnown W' "source_unit" ρ) (hkind : Alike W W' "base_tech") (hunit : Alike W W' "source_unit")
    (hg : Filled W W' E E' steps "source_use_min" ρ) (hn : Empty W W' E E' steps "source_use_equals" ρ)
    (h : Throughout b steps ρ) : Satisfied b' ρ := by
  obtain ⟨g', g⟩ := hg.given C hρ
  obtain ⟨k', k⟩ := hn.given C hρ
  rw [C84_source_least S' henum P' N' hb' hρ hin hk hu g' k',
    hg.added C (by decide) hρ N.isSourceMin N'.isSourceMin, T.source ρ hρ, ← sumSteps_mul]
  refine sumSteps_le ?_
  intro t ht
  rw [scale_kept S S' C hunit ha T.cap hρ ht]
  refine (C84_source_least S henum P N hb (C.valid hρ ht) (C.inModel hρ hin ht) ((hkind.text t).1 hk) ?_
    (g t ht) (k t ht)).1 (h t ht)
  unfold UnitKnown at hu ⊢
  rw [← hunit.text t, ← hunit.text t, ← hunit.text t]
  exact hu

end

section
variable {W W' : Where.Env} {E E' : Expr.Env Rat} {steps : Label → List Label} {pw : Rat → Rat → Rat}
  {enum : List String → List String} {ρ : Point} {b b' : Arr (Option (Cell Rat))}
  (S : Setting W E pw) (S' : Setting W' E' pw) (henum : Traverses enum) (C : Coarser W W' steps)
  {P : Plant W E} {P' : Plant W' E'} (T : Totals steps P P')

include S S' henum C T

/-- C114, supply: what is taken from the source is given out. -/
theorem C114_supply (N : Needs W E) (N' : Needs W' E') (F : Efficiencies E) (F' : Efficiencies E')
    {used used' : Point → Rat} (hd : Defines W E enum flowOutIncEff used)
    (hd' : Defines W' E' enum flowOutIncEff used') (hb : buildConstraint W E enum balanceSupplyNoStorage = .ok b)
    (hb' : buildConstraint W' E' enum balanceSupplyNoStorage = .ok b') (hρ : Valid W' ρ)
    (hin : InModel W' ["nodes", "techs", "carriers", "timesteps"] ρ) (hk : Text W' "base_tech" "supply" ρ)
    (hns : ¬ BaseMath.Flag W' "include_storage" ρ) (hz : F'.giving W' pw ρ ≠ 0) (hkind : Alike W W' "base_tech")
    (hst : Alike W W' "include_storage")
    (he : Even W W' E E' steps ["flow_out_eff", "flow_out_parasitic_eff", "flow_out_eff_per_distance", "distance"] ρ)
    (he' : Even W W' E E' steps ["source_eff"] ρ) (h : Throughout b steps ρ) : Satisfied b' ρ := by
  rw [C84_supply S' henum P' N' F' hd' hb' hρ hin hk hns hz, T.out ρ hρ, T.source ρ hρ, div_eq_mul_inv,
    ← sumSteps_mul, ← sumSteps_mul]
  refine sumSteps_congr ?_
  intro t ht
  have hg := giving_kept (F := F) (F' := F') (pw := pw) C hkind he hρ ht
  rw [hg] at hz
  have := (C84_supply S henum P N F hd hb (C.valid hρ ht) (C.inModel hρ hin ht) ((hkind.text t).1 hk)
    (fun hf => hns ((hst.flag t).2 hf)) hz).1 (h t ht)
  rw [hg, he'.kept C (by simp) (by decide) hρ N.isSourceEff
    N'.isSourceEff ht, ← this, div_eq_mul_inv]

omit T in
/-- C114, balance of a carrier at a node, whatever the inputs are. -/
theorem C114_balance {D : Flows E} {D' : Flows E'} (ho : Added W' steps D.out D'.out)
    (hi : Added W' steps D.inn D'.inn) (hx : Added W' steps D.exp D'.exp) (hm : Added W' steps D.unmet D'.unmet)
    (hu : Added W' steps D.unused D'.unused) (hb : buildConstraint W E enum systemBalance = .ok b)
    (hb' : buildConstraint W' E' enum systemBalance = .ok b') (hρ : Valid W' ρ) (h : Throughout b steps ρ) :
    Satisfied b' ρ := by
  obtain ⟨h1, h2⟩ := C63_balance S' D' henum hb' hρ
  by_cases hn : b'.at ρ = none
  · exact satisfied_none hn
  rw [satisfied_iff_eq (h2 hn)]
  have hin := h1.1 hn
  have tech : ∀ {f f' : Point → Rat}, Added W' steps f f' →
      sumOver E' "techs" f' ρ = sumSteps (steps (ρ "timesteps")) (sumOver E "techs" f) ρ := by
    intro f f' hf
    refine sumSteps_sumOver (by decide) (by rw [S'.coords, S.coords, C.others _ (by decide)]) steps f f' ρ ?_
    intro l hl
    have hv : Valid W' (set ρ "techs" l) := set_valid hρ (by rw [← S'.coords]; exact hl)
    have := hf _ hv
    simpa [Expr.set] using this
  rw [tech ho, tech hi, tech hx, hm ρ hρ, hu ρ hρ, ← sumSteps_add, ← sumSteps_sub,
    ← sumSteps_sub, ← sumSteps_add]
  unfold sumSteps
  apply List.sum_eq_zero
  intro x hx'
  obtain ⟨t, ht, rfl⟩ := List.mem_map.1 hx'
  obtain ⟨g1, g2⟩ := C63_balance S D henum hb (C.valid hρ ht)
  exact satisfied_eq (h t ht) (g2 (g1.2 (C.inModel hρ hin ht)))

end

section
variable {W W' : Where.Env} {E E' : Expr.Env Rat} {steps : Label → List Label} {pw : Rat → Rat → Rat}
  {ρ : Point} {f f' g g' : Point → Rat}

theorem Kept.mul (hf : Kept W' steps f f') (hg : Kept W' steps g g') :
    Kept W' steps (fun σ => f σ * g σ) (fun σ => f' σ * g' σ) := fun ρ hρ t ht => by
  simp only [hf ρ hρ t ht, hg ρ hρ t ht]

theorem Kept.add (hf : Kept W' steps f f') (hg : Kept W' steps g g') :
    Kept W' steps (fun σ => f σ + g σ) (fun σ => f' σ + g' σ) := fun ρ hρ t ht => by
  simp only [hf ρ hρ t ht, hg ρ hρ t ht]

theorem Kept.times (hf : Kept W' steps f f') (hg : Added W' steps g g') :
    Added W' steps (fun σ => f σ * g σ) (fun σ => f' σ * g' σ) := fun ρ hρ => by
  simp only [hg ρ hρ]
  rw [mul_comm, ← sumSteps_mul]
  refine sumSteps_congr ?_
  intro t ht
  rw [hf ρ hρ t ht, mul_comm]

theorem Added.times (hf : Added W' steps f f') (hg : Kept W' steps g g') :
    Added W' steps (fun σ => f σ * g σ) (fun σ => f' σ * g' σ) := fun ρ hρ => by
  simp only [hf ρ hρ]
  rw [← sumSteps_mul]
  refine sumSteps_congr ?_
  intro t ht
  rw [hg ρ hρ t ht]

theorem Added.add (hf : Added W' steps f f') (hg : Added W' steps g g') :
    Added W' steps (fun σ => f σ + g σ) (fun σ => f' σ + g' σ) := fun ρ hρ => by
  simp only [hf ρ hρ, hg ρ hρ]
  rw [← sumSteps_add]

theorem Added.over (S : Setting W E pw) (S' : Setting W' E' pw) (C : Coarser W W' steps) {d : String}
    (hd : d ≠ "timesteps") (hf : Added W' steps f f') : Added W' steps (sumOver E d f) (sumOver E' d f') := by
  intro ρ hρ
  refine sumSteps_sumOver hd (by rw [S'.coords, S.coords, C.others _ hd]) steps f f' ρ ?_
  intro l hl
  have hv : Valid W' (set ρ d l) := set_valid hρ (by rw [← S'.coords]; exact hl)
  have := hf _ hv
  rw [show (set ρ d l) "timesteps" = ρ "timesteps" by simp [Expr.set, Ne.symm hd]] at this
  exact this

theorem Kept.over (S : Setting W E pw) (S' : Setting W' E' pw) (C : Coarser W W' steps) {d : String}
    (hd : d ≠ "timesteps") (hf : Kept W' steps f f') : Kept W' steps (sumOver E d f) (sumOver E' d f') :=
  fun _ hρ _ ht => sumOver_kept S S' C hd hf hρ ht

/-- Over all intervals, what is added up is the sum over all time steps. -/
theorem Added.total (S : Setting W E pw) (S' : Setting W' E' pw) (C : Coarser W W' steps)
    (hf : Added W' steps f f') : Kept W' steps (sumOver E "timesteps" f) (sumOver E' "timesteps" f') := by
  intro ρ hρ t ht
  unfold sumOver
  rw [S'.coords, S.coords, ← C.intervals]
  have h1 : ∀ T ∈ W'.coords "timesteps", f' (set ρ "timesteps" T) =
      ((steps T).map (fun u => f (set ρ "timesteps" u))).sum := by
    intro T hT
    rw [hf _ (set_valid hρ hT), show (set ρ "timesteps" T) "timesteps" = T by simp [Expr.set]]
    unfold sumSteps
    simp only [BaseMath.set_set]
  rw [List.map_congr_left h1]
  simp only [BaseMath.set_set]
  generalize W'.coords "timesteps" = L
  induction L with
  | nil => simp
  | cons a L ih =>
    simp only [List.map_cons, List.sum_cons, List.flatMap_cons, List.map_append, List.sum_append, ih]

end

section
variable {W W' : Where.Env} {E E' : Expr.Env Rat} {steps : Label → List Label} {pw : Rat → Rat → Rat}
  {enum : List String → List String} {ρ : Point}
  (S : Setting W E pw) (S' : Setting W' E' pw) (henum : Traverses enum) (C : Coarser W W' steps)
  {K : CostModel W E} {K' : CostModel W' E'} (T : CostTotals steps K K') (hkind : Alike W W' "base_tech")
  (hp : ∀ σ, Valid W' σ → Even W W' E E' steps prices σ)
  (hh : ∀ σ, Valid W' σ → Filled W W' E E' steps "timestep_resolution" σ)

include C hp in
theorem price_kept {n : String} (hn : n ∈ prices) {ds ds' : List String} {f f' : Point → Rat} (hf : Is E n ds f)
    (hf' : Is E' n ds' f') : Kept W' steps f f' := by
  intro ρ hρ t ht
  exact (hp ρ hρ).kept C hn ((by decide : ∀ n ∈ prices, methodOf n ≠ .sum) n hn) hρ hf hf' ht

include S S' C hp hh in
theorem years_kept : Kept W' steps K.years K'.years := by
  have h1 : Added W' steps K.hours K'.hours := fun ρ hρ =>
    (hh ρ hρ).added C (by decide) hρ K.isHours K'.isHours
  have h2 : Kept W' steps K.weight K'.weight := price_kept C hp (by simp [prices]) K.isWeight K'.isWeight
  intro ρ hρ t ht
  unfold CostModel.years
  rw [Added.total S S' C (h1.times h2) ρ hρ t ht]

include S S' C T hkind hp in
theorem invest_kept : Kept W' steps K.invest K'.invest := by
  have k : ∀ {n : String} {ds ds' : List String} {f f' : Point → Rat}, n ∈ prices → Is E n ds f →
      Is E' n ds' f' → Kept W' steps f f' := fun hn hf hf' => price_kept C hp hn hf hf'
  have hfc : Kept W' steps K.flowCapCost K'.flowCapCost := by
    intro ρ hρ t ht
    unfold CostModel.flowCapCost
    simp only [hkind.text (ρ := ρ) t]
    rw [k (by simp [prices]) K.isPerFlowCap.is K'.isPerFlowCap.is ρ hρ t ht,
      k (by simp [prices]) K.isPerDistance.is K'.isPerDistance.is ρ hρ t ht,
      k (by simp [prices]) K.isDistance K'.isDistance ρ hρ t ht, T.flowCap ρ hρ t ht]
  exact ((((hfc.over S S' C (by decide)).add
    ((k (by simp [prices]) K.isPerStorageCap.is K'.isPerStorageCap.is).mul T.storageCap)).add
    ((k (by simp [prices]) K.isPerSourceCap.is K'.isPerSourceCap.is).mul T.sourceCap)).add
    ((k (by simp [prices]) K.isPerArea.is K'.isPerArea.is).mul T.area))

include S S' henum C T hkind hp hh in
/-- C114, costs: those of a technology at a node are the same. -/
theorem C114_cost (hF : Frame W) (hF' : Frame W') (H : CostShapes W) (H' : CostShapes W') (hw : CostInputs W)
    (hw' : CostInputs W') (X : CostExpressions W E enum) (X' : CostExpressions W' E' enum)
    {rate interest lifetime rate' interest' lifetime' : Point → Rat} (i1 : Is E "cost_depreciation_rate" [] rate)
    (i2 : Is E "cost_interest_rate" [] interest) (i3 : Is E "lifetime" [] lifetime)
    (i1' : Is E' "cost_depreciation_rate" [] rate') (i2' : Is E' "cost_interest_rate" [] interest')
    (i3' : Is E' "lifetime" [] lifetime') (hρ : Valid W' ρ) {t : Label} (ht : t ∈ steps (ρ "timesteps")) {r : Rat}
    (hr : AnnualRate W pw rate interest lifetime (set ρ "timesteps" t) r)
    (hr' : AnnualRate W' pw rate' interest' lifetime' ρ r) : X'.cost ρ = X.cost (set ρ "timesteps" t) := by
  have hv := C.valid hρ ht
  have h8 : (8760 : Rat) ≠ 0 := by norm_num
  have k : ∀ {n : String} {ds ds' : List String} {f f' : Point → Rat}, n ∈ prices → Is E n ds f →
      Is E' n ds' f' → Kept W' steps f f' := fun hn hf hf' => price_kept C hp hn hf hf'
  rw [C81_breakdown S' hF' K' H' henum X' hw' h8 hρ, C81_breakdown S hF K H henum X hw h8 hv]
  unfold CostModel.total
  rw [C81_annual S' hF' K' H' henum X' hw' h8 i1' i2' i3' hρ hr', C81_annual S hF K H henum X hw h8 i1 i2 i3 hv hr,
    years_kept S S' C hp hh ρ hρ t ht, invest_kept S S' C T hkind hp ρ hρ t ht]
  have hv : Added W' steps K.variableCost K'.variableCost := by
    refine Kept.times (k (by simp [prices]) K.isWeight K'.isWeight) ?_
    refine ((((k (by simp [prices]) K.isPerExport.is K'.isPerExport.is).times T.exp).over S S' C (by decide)).add
      (((k (by simp [prices]) K.isPerOut.is K'.isPerOut.is).times T.out).over S S' C (by decide))).add ?_
    intro ρ hρ
    dsimp only
    by_cases hs : Text W' "base_tech" "supply" ρ
    · have := ((k (by simp [prices]) K.isPerSource.is K'.isPerSource.is).times T.source) ρ hρ
      dsimp only at this
      rw [if_pos hs, this]
      refine sumSteps_congr ?_
      intro t _
      rw [if_pos ((hkind.text t).1 hs)]
    · rw [if_neg hs, (((k (by simp [prices]) K.isPerIn.is K'.isPerIn.is).times T.inn).over S S' C (by decide)) ρ hρ]
      refine sumSteps_congr ?_
      intro t _
      rw [if_neg (fun h => hs ((hkind.text t).2 h))]
  have hf : K'.fixedCost ρ = K.fixedCost (set ρ "timesteps" t) := by
    unfold CostModel.fixedCost
    rw [years_kept S S' C hp hh ρ hρ t ht, invest_kept S S' C T hkind hp ρ hρ t ht,
      k (by simp [prices]) K.isFraction.is K'.isFraction.is ρ hρ t ht,
      (((k (by simp [prices]) K.isPerYear.is K'.isPerYear.is).mul T.flowCap).over S S' C (by decide)) ρ hρ t ht]
  rw [hv.total S S' C ρ hρ t ht, hf]

end

section
variable {W W' : Where.Env} {steps : Label → List Label}

/-- The time step before the first one of an interval is the last one of the interval before. -/
theorem before_step (C : Coarser W W' steps) (hn : (W.coords "timesteps").Nodup)
    (hn' : (W'.coords "timesteps").Nodup) {T x : Label} {B : List Label} (hT : T ∈ W'.coords "timesteps")
    (hx : steps T = x :: B) :
    ((W'.coords "timesteps").head? = some T ↔ (W.coords "timesteps").head? = some x) ∧
      (steps (rolled (W'.coords "timesteps") 1 T)).getLast? = some (rolled (W.coords "timesteps") 1 x) := by
  obtain ⟨pre, post, hs⟩ := List.append_of_mem hT
  have hI := C.intervals
  have hfull := C.full
  generalize W'.coords "timesteps" = L' at *
  generalize W.coords "timesteps" = L at *
  subst hs
  rw [List.flatMap_append, List.flatMap_cons, hx] at hI
  rcases List.eq_nil_or_concat pre with rfl | ⟨pre', U, rfl⟩
  · simp only [List.flatMap_nil, List.nil_append, List.cons_append] at hI
    constructor
    · rw [← hI]
      simp
    · have h1 : rolled ([] ++ T :: post) 1 T = (T :: post).getLast (by simp) := by
        simpa using rolled_head (T := T :: post) (x := T) (B := post) (by simpa using hn') rfl
      have h2 := rolled_head hn hI.symm
      rw [h1, h2]
      have h3 : x :: (B ++ post.flatMap steps) = (T :: post).flatMap steps := by
        simp [hx]
      rcases List.eq_nil_or_concat post with rfl | ⟨post', Z, rfl⟩
      · simp [hx, List.getLast?_eq_getLast_of_ne_nil]
      · have hz : steps Z ≠ [] := hfull Z (by simp)
        have e1 : (T :: post'.concat Z).getLast (by simp) = Z := by simp
        rw [e1, List.getLast?_eq_getLast_of_ne_nil hz]
        congr 1
        have e2 : x :: (B ++ (post'.concat Z).flatMap steps) = (x :: (B ++ post'.flatMap steps)) ++ steps Z := by
          simp
        simp only [e2]
        rw [List.getLast_append_of_ne_nil _ hz]
  · have hu : steps U ≠ [] := hfull U (by simp)
    obtain ⟨u, v, huv⟩ : ∃ u v, steps U = u ++ [v] := ⟨_, _, (List.dropLast_append_getLast hu).symm⟩
    constructor
    · constructor
      · intro h
        exfalso
        cases pre' with
        | nil =>
          simp only [List.concat_eq_append, List.nil_append, List.cons_append, List.head?_cons, Option.some.injEq] at h
          subst h
          simp at hn'
        | cons a l =>
          simp only [List.concat_eq_append, List.cons_append, List.head?_cons, Option.some.injEq] at h
          subst h
          simp at hn'
      · intro h
        exfalso
        rw [← hI] at h hn
        have hne : (pre'.concat U).flatMap steps ≠ [] := by simp [hu]
        rw [List.head?_append_of_ne_nil _ hne] at h
        have hm := List.mem_of_mem_head? h
        exact (List.nodup_append.1 hn).2.2 x hm x (by simp) rfl
    · have h1 : rolled (pre'.concat U ++ T :: post) 1 T = U := by
        have := rolled_chain (T := pre'.concat U ++ T :: post) (pre := pre') (B := [U, T]) (post := post) hn' (by simp)
        simpa using this
      have h2 : rolled L 1 x = v := by
        have := rolled_chain (T := L) (pre := pre'.flatMap steps ++ u) (B := [v, x])
          (post := B ++ post.flatMap steps) hn (by rw [← hI]; simp [huv])
        simpa using this
      rw [h1, h2, huv]
      simp

end

section
variable {W W' : Where.Env} {E E' : Expr.Env Rat} {steps : Label → List Label} {pw : Rat → Rat → Rat}
  {enum : List String → List String} {ρ : Point} {b b' : Arr (Option (Cell Rat))}
  (S : Setting W E pw) (S' : Setting W' E' pw) (henum : Traverses enum) (C : Coarser W W' steps)

include S S' henum C in
/-- C114, storage without loss: its level at the end of an interval is the one before plus the net charge, also for the
first interval, whether storage is cyclic or not. -/
theorem C114_storage {D : StorageData E} {D' : StorageData E'} (hw : StorageInputs W) (hw' : StorageInputs W')
    (hl : Ends W' steps D.level D'.level) (ho : Added W' steps D.out D'.out) (hi : Added W' steps D.inn D'.inn)
    (hini : Kept W' steps D.init D'.init) (hcap : Kept W' steps D.cap D'.cap) (h0 : ∀ σ, D.loss σ = 0)
    (h0' : ∀ σ, D'.loss σ = 0) (hpw : ∀ a, pw 1 a = 1) (hkind : Alike W W' "base_tech")
    (hst : Alike W W' "include_storage") (hcy : Alike W W' "cyclic_storage")
    (hcl : ∀ σ, ¬ BaseMath.Flag W "cluster_first_timestep" σ)
    (hcl' : ∀ σ, ¬ BaseMath.Flag W' "cluster_first_timestep" σ)
    (hb : buildConstraint W E enum balanceStorage = .ok b) (hb' : buildConstraint W' E' enum balanceStorage = .ok b')
    (hρ : Valid W' ρ) (h : Throughout b steps ρ) : Satisfied b' ρ := by
  obtain ⟨g1, g2⟩ := C61_rule S' D' hw' henum hb' hρ
  by_cases hn : b'.at ρ = none
  · exact satisfied_none hn
  obtain ⟨hin, hsto⟩ := g1.1 hn
  obtain ⟨x, B, hx⟩ := List.exists_cons_of_ne_nil (C.nonempty hρ)
  have hxm : x ∈ steps (ρ "timesteps") := by rw [hx]; simp
  obtain ⟨f1, f2⟩ := before_step C S.steps S'.steps (hρ "timesteps") hx
  have hfirst : First W' ρ ↔ First W (set ρ "timesteps" x) := by
    unfold First
    rw [f1, BaseMath.set_at]
  have hcyc := hcy.flag (ρ := ρ) x
  have hlost : ∀ σ, D.lost pw σ = 0 := by
    intro σ
    unfold StorageData.lost
    rw [h0, sub_zero, hpw, sub_self, zero_mul]
  obtain ⟨pre, post, hT⟩ : ∃ pre post, W.coords "timesteps" = pre ++ (x :: B) ++ post := by
    obtain ⟨p, q, hpq⟩ := List.append_of_mem (hρ "timesteps")
    refine ⟨p.flatMap steps, q.flatMap steps, ?_⟩
    rw [← C.intervals, hpq, List.flatMap_append, List.flatMap_cons, hx, List.append_assoc]
  have hlast : (x :: B).getLast? = some ((x :: B).getLast (by simp)) := List.getLast?_eq_getLast_of_ne_nil (by simp)
  have hblock : ∀ v, Before W pw D (set ρ "timesteps" x) v →
      D'.level ρ = v + D'.net ρ := by
    intro v hv
    have hv' : Valid W (set ρ "timesteps" x) := C.valid hρ hxm
    have := C62_block S D hw henum hb (ρ := set ρ "timesteps" x) hv' (fun t => by rw [h0, h0]) hT hlast
      (by
        intro t ht
        rw [BaseMath.set_set]
        have ht' : t ∈ steps (ρ "timesteps") := by rw [hx]; exact ht
        refine ⟨h t ht', C.inModel hρ hin ht', ?_⟩
        unfold Stores at hsto ⊢
        rw [← hst.flag t, ← hkind.text t, ← hkind.text t, ← hkind.text t]
        exact hsto)
      (fun t _ => hcl _) (v := v) (by rw [BaseMath.set_set]; exact hv)
    rw [hlost, sub_zero, BaseMath.set_set] at this
    rw [hl ρ hρ _ (by rw [hx]; exact hlast), this]
    have e1 : sumSteps (x :: B) (D.lost pw) (set ρ "timesteps" x) = 0 := by
      unfold sumSteps
      apply List.sum_eq_zero
      intro y hy
      obtain ⟨t, _, rfl⟩ := List.mem_map.1 hy
      exact hlost _
    have e2 : sumSteps (x :: B) D.net (set ρ "timesteps" x) = D'.net ρ := by
      unfold StorageData.net
      rw [(hi.over S S' C (by decide)) ρ hρ, (ho.over S S' C (by decide)) ρ hρ, ← sumSteps_sub, hx]
      unfold sumSteps
      simp only [BaseMath.set_set]
    rw [e1, e2, sub_zero]
  by_cases hc : First W' ρ ∧ ¬ BaseMath.Flag W' "cyclic_storage" ρ
  · rw [satisfied_iff_eq (g2 hn _ (.inl ⟨hc.1, hc.2, rfl⟩))]
    refine hblock _ (.inl ⟨hfirst.1 hc.1, fun hf => hc.2 (hcyc.2 hf), ?_⟩)
    rw [hini ρ hρ x hxm, hcap ρ hρ x hxm]
  · rw [satisfied_iff_eq (g2 hn _ (.inr (.inl ⟨hc, hcl' ρ, rfl⟩)))]
    refine hblock _ (.inr (.inl ⟨?_, hcl _, ?_⟩))
    · rintro ⟨k1, k2⟩
      exact hc ⟨hfirst.2 k1, fun hf => k2 (hcyc.1 hf)⟩
    · rw [h0, h0', sub_zero, hpw, hpw, one_mul, one_mul]
      have hv : Valid W' (previous W' ρ) := by
        unfold previous
        exact set_valid hρ (rolled_mem _ S'.steps 1 _ (hρ _))
      have := hl _ hv (rolled (W.coords "timesteps") 1 x) (by
        unfold previous
        rw [BaseMath.set_at]
        exact f2)
      rw [this]
      unfold previous
      rw [BaseMath.set_set, BaseMath.set_set, BaseMath.set_at]

end

section
variable {W W' : Where.Env} {E E' : Expr.Env Rat} {steps : Label → List Label} {pw : Rat → Rat → Rat}
  {enum : List String → List String} {ρ : Point} {b b' : Arr (Option (Cell Rat))}
  (S : Setting W E pw) (S' : Setting W' E' pw) (henum : Traverses enum) (C : Coarser W W' steps)
  {P : Plant W E} {P' : Plant W' E'} (T : Totals steps P P') {N : Needs W E} {N' : Needs W' E'}
  (ha : Kept W' steps N.area N'.area)

theorem unit_step (hunit : Alike W W' "sink_unit") (hu : UnitKnown W' "sink_unit" ρ) (t : Label) :
    UnitKnown W "sink_unit" (set ρ "timesteps" t) := by
  unfold UnitKnown at hu ⊢
  rw [← hunit.text t, ← hunit.text t, ← hunit.text t]
  exact hu

include S S' henum C T ha

/-- C114 is false of a demand that is not dated: resampling leaves it as it is, so the demand of an interval is that of
one time step. -/
theorem C114_undated (F : Efficiencies E) (F' : Efficiencies E') {used used' : Point → Rat}
    (hd : Defines W E enum flowInIncEff used)
    (hd' : Defines W' E' enum flowInIncEff used') (hb : buildConstraint W E enum balanceDemand = .ok b)
    (hb' : buildConstraint W' E' enum balanceDemand = .ok b') (hρ : Valid W' ρ)
    (hin : InModel W' ["nodes", "techs", "carriers", "timesteps"] ρ) (hk : Text W' "base_tech" "demand" ρ)
    (hu : UnitKnown W' "sink_unit" ρ) (hkind : Alike W W' "base_tech") (hunit : Alike W W' "sink_unit")
    (he : Even W W' E E' steps ["flow_in_eff", "flow_in_eff_per_distance", "distance"] ρ)
    (hg : Constant W W' E E' steps "sink_use_equals" ρ) (h2 : 2 ≤ (steps (ρ "timesteps")).length)
    (hq : N'.sinkEquals ρ * scaleOf W' E' "sink_unit" N'.area P'.cap ρ ≠ 0)
    (h : Throughout b steps ρ) : ¬ Satisfied b' ρ := by
  intro hs
  obtain ⟨g', g, e⟩ := hg.reads C hρ N.isSinkEquals N'.isSinkEquals
  have h1 := ((C84_demand S' henum P' N' F' hd' hb' hρ hin hk hu).1 hs).1 g'
  rw [T.inn ρ hρ, ← sumSteps_mul] at h1
  have h3 : sumSteps (steps (ρ "timesteps")) (fun σ => P.inn σ * F'.taking W' pw ρ) ρ =
      sumSteps (steps (ρ "timesteps")) (fun _ => N'.sinkEquals ρ * scaleOf W' E' "sink_unit" N'.area P'.cap ρ) ρ := by
    refine sumSteps_congr ?_
    intro t ht
    have := ((C84_demand S henum P N F hd hb (C.valid hρ ht) (C.inModel hρ hin ht) ((hkind.text t).1 hk)
      (unit_step hunit hu t)).1 (h t ht)).1 (g t ht)
    rw [← taking_kept C hkind he hρ ht, ← scale_kept S S' C hunit ha T.cap hρ ht, ← e t ht] at this
    exact this
  rw [h3] at h1
  unfold sumSteps at h1
  rw [List.map_const', List.sum_replicate, nsmul_eq_mul] at h1
  have h4 : ((steps (ρ "timesteps")).length : Rat) = 1 := by
    apply mul_right_cancel₀ hq
    rw [h1, one_mul]
  have h5 : (steps (ρ "timesteps")).length = 1 := by exact_mod_cast h4
  omega

/-- C114 is false of efficiencies that change within an interval: resampling takes their mean. -/
theorem C114_efficiency (F : Efficiencies E) (F' : Efficiencies E') {used used' : Point → Rat}
    (hd : Defines W E enum flowInIncEff used)
    (hd' : Defines W' E' enum flowInIncEff used') (hb : buildConstraint W E enum balanceDemand = .ok b)
    (hb' : buildConstraint W' E' enum balanceDemand = .ok b') (hρ : Valid W' ρ)
    (hin : InModel W' ["nodes", "techs", "carriers", "timesteps"] ρ) (hk : Text W' "base_tech" "demand" ρ)
    (hu : UnitKnown W' "sink_unit" ρ) (hkind : Alike W W' "base_tech") (hunit : Alike W W' "sink_unit")
    (hg : Filled W W' E E' steps "sink_use_equals" ρ) (h : Throughout b steps ρ) :
    Satisfied b' ρ ↔ sumSteps (steps (ρ "timesteps"))
      (fun σ => P.inn σ * (F'.taking W' pw ρ - F.taking W pw σ)) ρ = 0 := by
  obtain ⟨g', g⟩ := hg.given C hρ
  have e1 : sumSteps (steps (ρ "timesteps")) (fun σ => P.inn σ * (F'.taking W' pw ρ - F.taking W pw σ)) ρ =
      P'.inn ρ * F'.taking W' pw ρ - N'.sinkEquals ρ * scaleOf W' E' "sink_unit" N'.area P'.cap ρ := by
    rw [T.inn ρ hρ, hg.added C (by decide) hρ N.isSinkEquals N'.isSinkEquals, ← sumSteps_mul, ← sumSteps_mul,
      ← sumSteps_sub]
    refine sumSteps_congr ?_
    intro t ht
    have := ((C84_demand S henum P N F hd hb (C.valid hρ ht) (C.inModel hρ hin ht) ((hkind.text t).1 hk)
      (unit_step hunit hu t)).1 (h t ht)).1 (g t ht)
    rw [mul_sub, this, scale_kept S S' C hunit ha T.cap hρ ht]
  rw [e1, sub_eq_zero, C84_demand S' henum P' N' F' hd' hb' hρ hin hk hu]
  exact ⟨fun k => k.1 g', fun k => ⟨fun _ => k, fun k' => absurd g' k'⟩⟩

/-- C114 is false of a limit that is given at some time steps of an interval only: resampling makes their sum the limit
of the interval, though the others have none. -/
theorem C114_partly (F : Efficiencies E) (F' : Efficiencies E') {used used' : Point → Rat}
    (hd : Defines W E enum flowInIncEff used)
    (hd' : Defines W' E' enum flowInIncEff used') (hb : buildConstraint W E enum balanceDemand = .ok b)
    (hb' : buildConstraint W' E' enum balanceDemand = .ok b') (hρ : Valid W' ρ)
    (hin : InModel W' ["nodes", "techs", "carriers", "timesteps"] ρ) (hk : Text W' "base_tech" "demand" ρ)
    (hu : UnitKnown W' "sink_unit" ρ) (hkind : Alike W W' "base_tech") (hunit : Alike W W' "sink_unit")
    (he : Even W W' E E' steps ["flow_in_eff", "flow_in_eff_per_distance", "distance"] ρ)
    (hn : Empty W W' E E' steps "sink_use_equals" ρ) {a : Arr (Option Rat)}
    (hr : Resampled W W' E E' steps "sink_use_max" a) (hdated : "timesteps" ∈ a.dims) {u v : Label}
    (hum : u ∈ steps (ρ "timesteps")) (hvm : v ∈ steps (ρ "timesteps")) (hug : a.at (set ρ "timesteps" u) ≠ none)
    (hvg : a.at (set ρ "timesteps" v) = none)
    (hpos : 0 < P.inn (set ρ "timesteps" v) * F.taking W pw (set ρ "timesteps" v))
    (hrest : ∀ t ∈ steps (ρ "timesteps"), 0 ≤ P.inn (set ρ "timesteps" t) * F.taking W pw (set ρ "timesteps" t))
    (hfull : ∀ t ∈ steps (ρ "timesteps"), a.at (set ρ "timesteps" t) ≠ none →
      P.inn (set ρ "timesteps" t) * F.taking W pw (set ρ "timesteps" t) =
        N.sinkMax (set ρ "timesteps" t) * scaleOf W E "sink_unit" N.area P.cap (set ρ "timesteps" t)) :
    ¬ Satisfied b' ρ := by
  intro hs
  obtain ⟨g', g⟩ := hn.given C hρ
  have hp : ∃ t ∈ steps (ρ "timesteps"), a.at (set ρ "timesteps" t) ≠ none := ⟨u, hum, hug⟩
  obtain ⟨k', e⟩ := partly_reads C hr hdated (by decide) hρ hp N.isSinkMax N'.isSinkMax
  have h1 := ((C84_demand S' henum P' N' F' hd' hb' hρ hin hk hu).1 hs).2 g' k'
  rw [e, T.inn ρ hρ, ← sumSteps_mul, ← sumSteps_mul] at h1
  refine absurd h1 (not_le.2 ?_)
  unfold sumSteps
  refine List.sum_lt_sum _ _ ?_ ⟨v, hvm, ?_⟩
  · intro t ht
    dsimp only
    rw [taking_kept (F := F) C hkind he hρ ht, scale_kept S S' C hunit ha T.cap hρ ht]
    split
    · rw [zero_mul]
      exact hrest t ht
    · rename_i hx
      rw [hfull t ht hx]
  · dsimp only
    rw [taking_kept (F := F) C hkind he hρ hvm, if_pos hvg, zero_mul]
    exact hpos

end

section
variable {W W' : Where.Env} {E E' : Expr.Env Rat} {steps : Label → List Label} {pw : Rat → Rat → Rat}
  {enum : List String → List String} {ρ : Point} {b b' : Arr (Option (Cell Rat))}
  (S : Setting W E pw) (S' : Setting W' E' pw) (henum : Traverses enum) (C : Coarser W W' steps)

include S S' henum C in
/-- C114 is false of storage with losses: what is lost between the time steps of an interval is lost in the interval
only if the level before it is reduced by as much. -/
theorem C114_loss {D : StorageData E} {D' : StorageData E'} (hw : StorageInputs W) (hw' : StorageInputs W')
    (hl : Ends W' steps D.level D'.level) (ho : Added W' steps D.out D'.out) (hi : Added W' steps D.inn D'.inn)
    (hkind : Alike W W' "base_tech") (hst : Alike W W' "include_storage")
    (hloss : ∀ t u, D.loss (set ρ "timesteps" t) = D.loss (set ρ "timesteps" u))
    (hcl : ∀ σ, ¬ BaseMath.Flag W "cluster_first_timestep" σ)
    (hb : buildConstraint W E enum balanceStorage = .ok b) (hb' : buildConstraint W' E' enum balanceStorage = .ok b')
    (hρ : Valid W' ρ) (hin : InModel W' ["nodes", "techs", "timesteps"] ρ) (hsto : Stores W' ρ)
    {x y : Label} {B : List Label} (hx : steps (ρ "timesteps") = x :: B) (hy : (x :: B).getLast? = some y)
    {v v' : Rat} (hv : Before W pw D (set ρ "timesteps" x) v) (hv' : Before W' pw D' ρ v')
    (h : Throughout b steps ρ) :
    Satisfied b' ρ ↔
      v' = v - (sumSteps (steps (ρ "timesteps")) (D.lost pw) ρ - D.lost pw (set ρ "timesteps" y)) := by
  obtain ⟨g1, g2⟩ := C61_rule S' D' hw' henum hb' hρ
  have hn := g1.2 ⟨hin, hsto⟩
  have hxm : x ∈ steps (ρ "timesteps") := by rw [hx]; simp
  obtain ⟨pre, post, hT⟩ : ∃ pre post, W.coords "timesteps" = pre ++ (x :: B) ++ post := by
    obtain ⟨p, q, hpq⟩ := List.append_of_mem (hρ "timesteps")
    refine ⟨p.flatMap steps, q.flatMap steps, ?_⟩
    rw [← C.intervals, hpq, List.flatMap_append, List.flatMap_cons, hx, List.append_assoc]
  have hvx : Valid W (set ρ "timesteps" x) := C.valid hρ hxm
  have := C62_block S D hw henum hb (ρ := set ρ "timesteps" x) hvx
    (fun t => by rw [BaseMath.set_set]; exact hloss t x) hT hy
    (by
      intro t ht
      rw [BaseMath.set_set]
      have ht' : t ∈ steps (ρ "timesteps") := by rw [hx]; exact ht
      refine ⟨h t ht', C.inModel hρ hin ht', ?_⟩
      unfold Stores at hsto ⊢
      rw [← hst.flag t, ← hkind.text t, ← hkind.text t, ← hkind.text t]
      exact hsto)
    (fun t _ => hcl _) (v := v) (by rw [BaseMath.set_set]; exact hv)
  rw [BaseMath.set_set] at this
  have e2 : sumSteps (x :: B) D.net (set ρ "timesteps" x) = D'.net ρ := by
    unfold StorageData.net
    rw [(hi.over S S' C (by decide)) ρ hρ, (ho.over S S' C (by decide)) ρ hρ, ← sumSteps_sub, hx]
    unfold sumSteps
    simp only [BaseMath.set_set]
  have e3 : sumSteps (x :: B) (D.lost pw) (set ρ "timesteps" x) = sumSteps (x :: B) (D.lost pw) ρ := by
    unfold sumSteps
    simp only [BaseMath.set_set]
  rw [e2, e3] at this
  rw [satisfied_iff_eq (g2 hn _ hv'), hl ρ hρ y (by rw [hx]; exact hy), hx]
  constructor
  · intro k
    linarith
  · intro k
    linarith

end

end Coarse
end Calliope
