import Verif.Props.Coarse
import Verif.Props.Ramping

/-!
# A plan, added up over coarser time steps: export, storage capacity, conversion, transmission, ramping
-/

namespace Calliope
namespace Coarse

open Grid Infix Expr Expand Build Where BaseMath Time

/-- The average flow per hour of the time steps of an interval, each with its length. -/
def mean {W : Where.Env} {E : Expr.Env Rat} (steps : Label → List Label) (P : Plant W E) (ρ : Point) : Rat :=
  sumSteps (steps (ρ "timesteps")) (fun σ => P.power σ * P.hours σ) ρ / sumSteps (steps (ρ "timesteps")) P.hours ρ

theorem expAt {W : Where.Env} {E : Expr.Env Rat} (P : Plant W E) (ρ : Point) :
    BaseMath.valueAt E "flow_export" ρ = some (P.exp ρ) := P.isExp.decision.is.at ρ
theorem levelAt {W : Where.Env} {E : Expr.Env Rat} (P : Plant W E) (ρ : Point) :
    BaseMath.valueAt E "storage" ρ = some (P.level ρ) := P.isLevel.decision.is.at ρ

theorem last_step {W W' : Where.Env} {steps : Label → List Label} (C : Coarser W W' steps) {ρ : Point}
    (hρ : Valid W' ρ) : ∃ t, (steps (ρ "timesteps")).getLast? = some t :=
  ⟨_, List.getLast?_eq_getLast_of_ne_nil (C.nonempty hρ)⟩

section
variable {W W' : Where.Env} {E E' : Expr.Env Rat} {steps : Label → List Label} {pw : Rat → Rat → Rat}
  {enum : List String → List String} {ρ : Point} {b b' : Arr (Option (Cell Rat))}
  (S : Setting W E pw) (S' : Setting W' E' pw) (henum : Traverses enum) (C : Coarser W W' steps)

/-- Where a variable exists in an interval, it exists in its time steps, if both models have it for the same reasons. -/
theorem exists_step (C : Coarser W W' steps) {v : Variable Rat} {f f' : Point → Rat} (h : Solves W E v f)
    (h' : Solves W' E' v f') (hc : ∀ σ, Valid W' σ → ∀ t ∈ steps (σ "timesteps"),
      Truth W' σ v.top → Truth W (set σ "timesteps" t) v.top) (hρ : Valid W' ρ) {t : Label}
    (ht : t ∈ steps (ρ "timesteps")) (hd : "timesteps" ∈ v.foreach) (he : Exists W' v.name ρ) :
    Exists W v.name (set ρ "timesteps" t) := by
  obtain ⟨g1, σ, g2, g3, g4, g5⟩ := (C79_exists h' hρ).1 he
  have hσ : σ "timesteps" = ρ "timesteps" := g3 _ hd
  refine (C79_exists h (C.valid hρ ht)).2 ⟨?_, set σ "timesteps" t, C.valid g2 (by rw [hσ]; exact ht), ?_, ?_,
    hc σ g2 t (by rw [hσ]; exact ht) g5⟩
  · intro d hd'
    have := g1 d hd'
    rw [C.matrix, C.dims] at this
    exact this
  · intro d hd'
    unfold Expr.set
    split
    · rfl
    · exact g3 d hd'
  · rw [at_step C.undated, ← C.matrix]
    exact g4

include S S' henum C

/-- C114, export: no more than the outflow. -/
theorem C114_export {P : Plant W E} {P' : Plant W' E'} (T : Totals steps P P') (hk : Alike W W' "carrier_export")
    (hb : buildConstraint W E enum exportBalance = .ok b) (hb' : buildConstraint W' E' enum exportBalance = .ok b')
    (hρ : Valid W' ρ) (h : Throughout b steps ρ) : Satisfied b' ρ := by
  obtain ⟨h1, h2⟩ := single_reads S'.wf henum (by simp) hb' (local_built P'.isExp.decision.within) hρ
    (by simp [subRefs]) (by simp [sliceRefs]) (by plain_sides) (by plain_sides)
  by_cases hn : b'.at ρ = none
  · exact satisfied_none hn
  obtain ⟨hin, ht⟩ := h1.1 hn
  have e := h2 hin ht
  rw [plain_val, plain_val, val_comp, val_comp, outAt P', expAt P'] at e
  rw [satisfied_iff_ge e, T.out ρ hρ, T.exp ρ hρ]
  refine sumSteps_le ?_
  intro t ht'
  obtain ⟨_, g2⟩ := single_reads S.wf henum (by simp) hb (local_built P.isExp.decision.within) (C.valid hρ ht')
    (by simp [subRefs]) (by simp [sliceRefs]) (by plain_sides) (by plain_sides)
  have e' := g2 (C.inModel hρ hin ht') ((truth_built' _ _).2
    (exists_step C P.isExp P'.isExp (fun σ _ t _ hT => (truth_given' _ _).2 ((hk.given t).1 ((truth_given' _ _).1 hT)))
      hρ ht' (by decide) ((truth_built' _ _).1 ht)))
  rw [plain_val, plain_val, val_comp, val_comp, outAt P, expAt P] at e'
  exact satisfied_ge (h t ht') e'

omit S S' henum in
theorem level_step {P : Plant W E} {P' : Plant W' E'} (hst : Alike W W' "include_storage")
    (hkind : Alike W W' "base_tech") (hρ : Valid W' ρ) {t : Label} (ht : t ∈ steps (ρ "timesteps"))
    (he : Exists W' "storage" ρ) : Exists W "storage" (set ρ "timesteps" t) :=
  exists_step C P.isLevel P'.isLevel (fun σ _ t _ hT => by
    have := (truth_either _ _ _).1 hT
    refine (truth_either _ _ _).2 ?_
    rw [truth_isTrue, truth_isText] at this ⊢
    rw [← hst.flag t, ← hkind.text t]
    exact this) hρ ht (by decide) he

/-- C114, storage: within its capacity. -/
theorem C114_storage_max {P : Plant W E} {P' : Plant W' E'} (hl : Ends W' steps P.level P'.level)
    (hcap : Kept W' steps P.storageCap P'.storageCap) (hst : Alike W W' "include_storage")
    (hkind : Alike W W' "base_tech")
    (hb : buildConstraint W E enum storageMax = .ok b) (hb' : buildConstraint W' E' enum storageMax = .ok b')
    (hρ : Valid W' ρ) (h : Throughout b steps ρ) : Satisfied b' ρ := by
  obtain ⟨h1, h2⟩ := single_reads S'.wf henum (by simp) hb' (local_built P'.isLevel.decision.within) hρ
    (by simp [subRefs]) (by simp [sliceRefs]) (by plain_sides) (by plain_sides)
  by_cases hn : b'.at ρ = none
  · exact satisfied_none hn
  obtain ⟨hin, ht⟩ := h1.1 hn
  have e := h2 hin ht
  rw [plain_val, plain_val, val_comp, val_comp, levelAt P', P'.decisionStorageCap.is.at] at e
  obtain ⟨t, hlast⟩ := last_step C hρ
  have ht' := List.mem_of_getLast? hlast
  rw [satisfied_iff_le e, hl ρ hρ t hlast, hcap ρ hρ t ht']
  obtain ⟨_, g2⟩ := single_reads S.wf henum (by simp) hb (local_built P.isLevel.decision.within) (C.valid hρ ht')
    (by simp [subRefs]) (by simp [sliceRefs]) (by plain_sides) (by plain_sides)
  have e' := g2 (C.inModel hρ hin ht') ((truth_built' _ _).2
    (level_step (P := P) (P' := P') C hst hkind hρ ht' ((truth_built' _ _).1 ht)))
  rw [plain_val, plain_val, val_comp, val_comp, levelAt P, P.decisionStorageCap.is.at] at e'
  exact satisfied_le (h t ht') e'

/-- C114, storage: not below its depth of discharge. -/
theorem C114_depth {P : Plant W E} {P' : Plant W' E'} (hl : Ends W' steps P.level P'.level)
    (hcap : Kept W' steps P.storageCap P'.storageCap) (hst : Alike W W' "include_storage")
    (hkind : Alike W W' "base_tech") {depth depth' : Point → Rat} (hd : Is E "storage_discharge_depth" [] depth)
    (hd' : Is E' "storage_discharge_depth" [] depth')
    (hw : Within W ["nodes", "techs", "timesteps"] ["storage_discharge_depth"])
    (hw' : Within W' ["nodes", "techs", "timesteps"] ["storage_discharge_depth"])
    (hb : buildConstraint W E enum storageDischargeDepthLimit = .ok b)
    (hb' : buildConstraint W' E' enum storageDischargeDepthLimit = .ok b')
    (hρ : Valid W' ρ) (R : Even W W' E E' steps ["storage_discharge_depth"] ρ) (h : Throughout b steps ρ) :
    Satisfied b' ρ := by
  obtain ⟨h1, h2⟩ := single_reads S'.wf henum (by simp) hb'
    ⟨local_built P'.isLevel.decision.within, local_given hw'⟩ hρ
    (by simp [subRefs, subRefsRest, bin]) (by simp [sliceRefs, sliceRefsRest, bin]) (by plain_sides) (by plain_sides)
  by_cases hn : b'.at ρ = none
  · exact satisfied_none hn
  obtain ⟨hin, ht⟩ := h1.1 hn
  have e := h2 hin ht
  rw [plain_val, plain_val, val_bin, val_bin, val_comp, val_comp, val_comp, val_num, levelAt P',
    P'.decisionStorageCap.is.at, hd'.at, S'.numbers.times, S'.numbers.minus] at e
  obtain ⟨t, hlast⟩ := last_step C hρ
  have ht' := List.mem_of_getLast? hlast
  rw [satisfied_iff_ge e, hl ρ hρ t hlast, hcap ρ hρ t ht', R.kept C (by simp) (by decide) hρ hd hd' ht']
  obtain ⟨_, g2⟩ := single_reads S.wf henum (by simp) hb
    ⟨local_built P.isLevel.decision.within, local_given hw⟩ (C.valid hρ ht')
    (by simp [subRefs, subRefsRest, bin]) (by simp [sliceRefs, sliceRefsRest, bin]) (by plain_sides) (by plain_sides)
  obtain ⟨k1, k2⟩ := (truth_both _ _ _).1 ht
  have e' := g2 (C.inModel hρ hin ht') ((truth_both _ _ _).2 ⟨(truth_built' _ _).2
    (level_step (P := P) (P' := P') C hst hkind hρ ht' ((truth_built' _ _).1 k1)),
    (truth_given' _ _).2 ((R.given C (by simp) (by decide) hρ ht').1 ((truth_given' _ _).1 k2))⟩)
  rw [plain_val, plain_val, val_bin, val_bin, val_comp, val_comp, val_comp, val_num, levelAt P,
    P.decisionStorageCap.is.at, hd.at, S.numbers.times, S.numbers.minus] at e'
  exact satisfied_ge (h t ht') e'

/-- C114, transmission: what arrives in an interval is what was sent, but for the losses. -/
theorem C114_transmission {out out' inn inn' : Point → Rat} (hk : Alike W W' "base_tech")
    (hw : Within W ["techs"] ["base_tech"]) (io : Is E "flow_out_inc_eff" ["nodes", "carriers"] out)
    (io' : Is E' "flow_out_inc_eff" ["nodes", "carriers"] out') (ii : Is E "flow_in_inc_eff" ["nodes", "carriers"] inn)
    (ii' : Is E' "flow_in_inc_eff" ["nodes", "carriers"] inn') (ho : Added W' steps out out')
    (hi : Added W' steps inn inn') (hb : buildConstraint W E enum balanceTransmission = .ok b)
    (hb' : buildConstraint W' E' enum balanceTransmission = .ok b') (hρ : Valid W' ρ) (h : Throughout b steps ρ) :
    Satisfied b' ρ := by
  have key : ∀ {U : Where.Env} {X : Expr.Env Rat} {c : Arr (Option (Cell Rat))} {σ : Point} {f g : Point → Rat},
      Setting U X pw → Within U ["techs"] ["base_tech"] → Is X "flow_out_inc_eff" ["nodes", "carriers"] f →
      Is X "flow_in_inc_eff" ["nodes", "carriers"] g → buildConstraint U X enum balanceTransmission = .ok c →
      Valid U σ → (c.at σ ≠ none ↔ InModel U ["techs", "timesteps"] σ ∧ Text U "base_tech" "transmission" σ) ∧
        (c.at σ ≠ none → c.at σ = some ⟨some (sumOver X "nodes" (sumOver X "carriers" f) σ), "==",
          some (sumOver X "nodes" (sumOver X "carriers" g) σ)⟩) := by
    intro U X c σ f g hS hu hf hg hc hσ
    have hne : ∀ d ∈ ["nodes", "carriers"], X.coords d ≠ [] := by
      intro d _
      rw [hS.coords]
      exact List.ne_nil_of_mem (hσ d)
    obtain ⟨h1, h2⟩ := single_at hS.wf henum (by simp) hc (by simp [subRefs]) (by simp [sliceRefs])
      (by simp [Ok, Apart, NoOps]) (by simp [Ok, Apart, NoOps]) hσ (by
        intro τ hs
        rw [truth_isText, truth_isText]
        exact text_same hs (fun d hd => (by decide : ∀ d ∈ ["techs"], d ∈ ["techs", "timesteps"]) d
          (hu _ (by simp) d hd)))
    refine ⟨by rw [h1, truth_isText], fun hn => ?_⟩
    have e1 := mean_sum (slices := fun n => List.lookup n []) (over := ["nodes", "carriers"]) hS.wf hf
      (by simp) (by simp) hne σ
    have e2 := mean_sum (slices := fun n => List.lookup n []) (over := ["nodes", "carriers"]) hS.wf hg
      (by simp) (by simp) hne σ
    rw [points_two] at e1 e2
    have := h2 hn
    unfold plain at this
    rw [e1, e2] at this
    exact this
  have hw' : Within W' ["techs"] ["base_tech"] := by
    intro n hn
    rw [List.mem_singleton.1 hn, hk.1]
    exact hw _ (by simp)
  obtain ⟨h1, h2⟩ := key S' hw' io' ii' hb' hρ
  by_cases hn : b'.at ρ = none
  · exact satisfied_none hn
  obtain ⟨hin, ht⟩ := h1.1 hn
  rw [satisfied_iff_eq (h2 hn), ((ho.over S S' C (d := "carriers") (by decide)).over S S' C (by decide)) ρ hρ,
    ((hi.over S S' C (d := "carriers") (by decide)).over S S' C (by decide)) ρ hρ]
  refine sumSteps_congr ?_
  intro t ht'
  obtain ⟨g1, g2⟩ := key S hw io ii hb (C.valid hρ ht')
  exact satisfied_eq (h t ht') (g2 (g1.2 ⟨C.inModel hρ hin ht', (hk.text t).1 ht⟩))

/-- C114, conversion: what a conversion technology gives in an interval is what it took, but for the losses. -/
theorem C114_conversion {out out' inn inn' : Point → Rat} (hk : Alike W W' "base_tech")
    (hst : Alike W W' "include_storage") (hw : Within W ["nodes", "techs"] ["base_tech", "include_storage"])
    (io : Is E "flow_out_inc_eff" ["carriers"] out) (io' : Is E' "flow_out_inc_eff" ["carriers"] out')
    (ii : Is E "flow_in_inc_eff" ["carriers"] inn) (ii' : Is E' "flow_in_inc_eff" ["carriers"] inn')
    (ho : Added W' steps out out') (hi : Added W' steps inn inn')
    (hb : buildConstraint W E enum balanceConversion = .ok b)
    (hb' : buildConstraint W' E' enum balanceConversion = .ok b') (hρ : Valid W' ρ) (h : Throughout b steps ρ) :
    Satisfied b' ρ := by
  have key : ∀ {U : Where.Env} {X : Expr.Env Rat} {c : Arr (Option (Cell Rat))} {σ : Point} {f g : Point → Rat},
      Setting U X pw → Within U ["nodes", "techs"] ["base_tech", "include_storage"] →
      Is X "flow_out_inc_eff" ["carriers"] f → Is X "flow_in_inc_eff" ["carriers"] g →
      buildConstraint U X enum balanceConversion = .ok c → Valid U σ →
        (c.at σ ≠ none ↔ InModel U ["nodes", "techs", "timesteps"] σ ∧ Text U "base_tech" "conversion" σ ∧
          ¬ BaseMath.Flag U "include_storage" σ) ∧
        (c.at σ ≠ none → c.at σ = some ⟨some (sumOver X "carriers" f σ), "==", some (sumOver X "carriers" g σ)⟩) := by
    intro U X c σ f g hS hu hf hg hc hσ
    have hne : X.coords "carriers" ≠ [] := by
      rw [hS.coords]
      exact List.ne_nil_of_mem (hσ _)
    have hmore : ∀ d ∈ ["nodes", "techs"], d ∈ ["nodes", "techs", "timesteps"] := by decide
    obtain ⟨h1, h2⟩ := single_at hS.wf henum (by simp) hc (by simp [subRefs]) (by simp [sliceRefs])
      (by simp [Ok, Apart, NoOps]) (by simp [Ok, Apart, NoOps]) hσ (by
        intro τ hs
        rw [truth_both, truth_both, truth_no, truth_no, truth_isText, truth_isText, truth_isTrue, truth_isTrue,
          flag_same hs (fun d hd => hmore d (hu _ (by simp) d hd)),
          text_same hs (fun d hd => hmore d (hu _ (by simp) d hd))])
    refine ⟨by rw [h1, truth_both, truth_no, truth_isText, truth_isTrue], fun hn => ?_⟩
    have e1 := mean_sum_one (slices := fun n => List.lookup n []) hS.wf hf (by simp) hne σ
    have e2 := mean_sum_one (slices := fun n => List.lookup n []) hS.wf hg (by simp) hne σ
    have := h2 hn
    unfold plain at this
    rw [e1, e2] at this
    exact this
  have hw' : Within W' ["nodes", "techs"] ["base_tech", "include_storage"] := by
    intro n hn
    simp only [List.mem_cons, List.not_mem_nil, or_false] at hn
    rcases hn with rfl | rfl
    · rw [hk.1]
      exact hw _ (by simp)
    · rw [hst.1]
      exact hw _ (by simp)
  obtain ⟨h1, h2⟩ := key S' hw' io' ii' hb' hρ
  by_cases hn : b'.at ρ = none
  · exact satisfied_none hn
  obtain ⟨hin, ht, hns⟩ := h1.1 hn
  rw [satisfied_iff_eq (h2 hn), (ho.over S S' C (by decide)) ρ hρ, (hi.over S S' C (by decide)) ρ hρ]
  refine sumSteps_congr ?_
  intro t ht'
  obtain ⟨g1, g2⟩ := key S hw io ii hb (C.valid hρ ht')
  exact satisfied_eq (h t ht') (g2 (g1.2 ⟨C.inModel hρ hin ht', (hk.text t).1 ht, fun hf => hns ((hst.flag t).2 hf)⟩))

/-- C114, ramping: in the coarser model the average flow per hour of an interval is compared to that of the interval
before, with the rate of change for one step.  A plan that changes steadily within its rate exceeds it (see the
example). -/
theorem C114_ramping {P : Plant W E} {P' : Plant W' E'} (T : Totals steps P P') (R : Ramps W E) (R' : Ramps W' E')
    {up down : Arr (Option (Cell Rat))} (h1 : buildConstraint W' E' enum rampingUp = .ok up)
    (h2 : buildConstraint W' E' enum rampingDown = .ok down) (hρ : Valid W' ρ)
    (hin : InModel W' ["nodes", "techs", "carriers", "timesteps"] ρ) (hg : GivenAt W' "flow_ramping" ρ)
    (hf : ¬ First W' ρ) (hio : GivenAt W' "carrier_in" ρ ∨ GivenAt W' "carrier_out" ρ)
    (hh : ∀ σ, Valid W' σ → Filled W W' E E' steps "timestep_resolution" σ)
    (he : Even W W' E E' steps ["flow_ramping"] ρ) {t : Label} (ht : t ∈ steps (ρ "timesteps")) :
    (Satisfied up ρ ∧ Satisfied down ρ) ↔
      |mean steps P ρ - mean steps P (previous W' ρ)| ≤
        R.ramping (set ρ "timesteps" t) * P.cap (set ρ "timesteps" t) := by
  have hm : ∀ σ, Valid W' σ → P'.power σ = mean steps P σ := by
    intro σ hσ
    unfold Plant.power mean
    rw [T.out σ hσ, T.inn σ hσ, (hh σ hσ).added C (by decide) hσ P.isHours P'.isHours, ← sumSteps_sub]
    congr 1
    refine sumSteps_congr ?_
    intro u hu
    have hz : P.hours (set σ "timesteps" u) ≠ 0 := by
      intro h0
      obtain ⟨a, ha, hv, _⟩ := P.isHours
      exact R.hours a ha _ (C.valid hσ hu) (by rw [hv, h0])
    unfold Plant.power
    rw [div_mul_cancel₀ _ hz]
  rw [C85_step S' henum P' R' h1 h2 hρ hin hg hf hio, hm ρ hρ, hm _ (previous_valid S' hρ), T.cap ρ hρ t ht,
    he.kept C (by simp) (by decide) hρ R.isRamping R'.isRamping ht]

end

section
variable {W W' : Where.Env} {E E' : Expr.Env Rat} {steps : Label → List Label} {pw : Rat → Rat → Rat}
  {enum : List String → List String} (S : Setting W E pw) (S' : Setting W' E' pw) (henum : Traverses enum)
  (C : Coarser W W' steps) {P : Plant W E} {P' : Plant W' E'} (T : Totals steps P P')
  (hkind : Alike W W' "base_tech") (hw : Within W ["nodes", "techs"] ["base_tech"])

include S S' henum C T hkind hw

/-- C114, losses of inflow: flows into technologies with their losses are added up, too, if efficiencies do not change
within intervals. -/
theorem C114_taking {used used' : Point → Rat} (hd : Defines W E enum flowInIncEff used)
    (hd' : Defines W' E' enum flowInIncEff used') (F : Efficiencies E) (F' : Efficiencies E')
    (he : ∀ σ, Valid W' σ → Even W W' E E' steps ["flow_in_eff", "flow_in_eff_per_distance", "distance"] σ) :
    Added W' steps used used' := by
  intro ρ hρ
  have hw' : Within W' ["nodes", "techs"] ["base_tech"] := by
    intro n hn
    rw [List.mem_singleton.1 hn, hkind.1]
    exact hw _ (by simp)
  rw [delivered S' henum P' F' hd' hw' hρ, T.inn ρ hρ, ← sumSteps_mul]
  refine sumSteps_congr ?_
  intro t ht
  rw [delivered S henum P F hd hw (C.valid hρ ht), taking_kept (F := F) C hkind (he ρ hρ) hρ ht]

/-- C114, losses of outflow. -/
theorem C114_giving {used used' : Point → Rat} (hd : Defines W E enum flowOutIncEff used)
    (hd' : Defines W' E' enum flowOutIncEff used') (F : Efficiencies E) (F' : Efficiencies E')
    (hz : ∀ σ, Valid W' σ → F'.giving W' pw σ ≠ 0)
    (he : ∀ σ, Valid W' σ → Even W W' E E' steps
      ["flow_out_eff", "flow_out_parasitic_eff", "flow_out_eff_per_distance", "distance"] σ) :
    Added W' steps used used' := by
  intro ρ hρ
  have hw' : Within W' ["nodes", "techs"] ["base_tech"] := by
    intro n hn
    rw [List.mem_singleton.1 hn, hkind.1]
    exact hw _ (by simp)
  have h0 := hz ρ hρ
  rw [drawn S' henum P' F' hd' hw' hρ h0, T.out ρ hρ, div_eq_mul_inv, ← sumSteps_mul]
  refine sumSteps_congr ?_
  intro t ht
  have hg := giving_kept (F := F) (F' := F') (pw := pw) C hkind (he ρ hρ) hρ ht
  rw [hg] at h0
  rw [drawn S henum P F hd hw (C.valid hρ ht) h0, hg, div_eq_mul_inv]

end

end Coarse
end Calliope
