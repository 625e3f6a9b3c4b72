import Verif.Proofs.Supply

/-!
# Demand and sources
-/

namespace Calliope
namespace BaseMath

open Grid Infix Expr Expand Build Where

variable {V : Type}

section
variable [Field V] [LinearOrder V] [IsStrictOrderedRing V] {W : Where.Env} {E : Expr.Env V} {pw : V → V → V}
  {enum : List String → List String} {ρ : Point} (S : Setting W E pw) (henum : Traverses enum) (P : Plant W E)
  (N : Needs W E) (F : Efficiencies E)

theorem Plant.capIs (P : Plant W E) : Is E "flow_cap" ["nodes", "techs", "carriers"] P.cap := by
  rcases P.isCap with h | h
  · exact h.decision.is
  · exact h.decision.is

include S henum in
/-- The inflow after losses, also where there is none. -/
theorem delivered (P : Plant W E) (F : Efficiencies E) {used : Point → V} (hd : Defines W E enum flowInIncEff used)
    (hw : Within W ["nodes", "techs"] ["base_tech"]) (hρ : Valid W ρ) : used ρ = P.inn ρ * F.taking W pw ρ := by
  obtain ⟨b, hb, K⟩ := hd
  obtain ⟨h1, h2⟩ := inflow_at S P.isInn.decision.is F henum hb
    (fun n hn d hd => (by decide : ∀ d ∈ ["nodes", "techs"], d ∈ ["nodes", "techs", "carriers", "timesteps"]) d
      (hw n hn d hd)) P.isInn.decision.within hρ
  rw [K.value ρ hρ]
  by_cases h : b.at ρ = none
  · rw [h]
    have h0 : P.inn ρ = 0 := by
      by_contra hne
      exact h1.2 (P.isInn.decision.only ρ hρ hne) h
    rw [h0, zero_mul]
    rfl
  · rw [h2 h]
    rfl

include S henum in
/-- The outflow with losses, also where there is none. -/
theorem drawn (P : Plant W E) (F : Efficiencies E) {used : Point → V} (hd : Defines W E enum flowOutIncEff used)
    (hw : Within W ["nodes", "techs"] ["base_tech"]) (hρ : Valid W ρ) (hz : F.giving W pw ρ ≠ 0) :
    used ρ = P.out ρ / F.giving W pw ρ := by
  obtain ⟨b, hb, K⟩ := hd
  obtain ⟨h1, h2⟩ := outflow_at S P.isOut.decision.is F henum hb
    (fun n hn d hd => (by decide : ∀ d ∈ ["nodes", "techs"], d ∈ ["nodes", "techs", "carriers", "timesteps"]) d
      (hw n hn d hd)) P.isOut.decision.within hρ
  rw [K.value ρ hρ]
  by_cases h : b.at ρ = none
  · rw [h]
    have h0 : P.out ρ = 0 := by
      by_contra hne
      exact h1.2 (P.isOut.decision.only ρ hρ hne) h
    rw [h0, zero_div]
    rfl
  · rw [h2 h hz]
    rfl

include S henum N in
/-- C84, demand: where a demand is given, exactly it is delivered; otherwise at most the largest use. -/
theorem C84_demand {used : Point → V} {b : Arr (Option (Cell V))} (hd : Defines W E enum flowInIncEff used)
    (hb : buildConstraint W E enum balanceDemand = .ok b) (hρ : Valid W ρ)
    (hin : InModel W ["nodes", "techs", "carriers", "timesteps"] ρ) (hk : Text W "base_tech" "demand" ρ)
    (hu : UnitKnown W "sink_unit" ρ) :
    Satisfied b ρ ↔
      (GivenAt W "sink_use_equals" ρ →
        P.inn ρ * F.taking W pw ρ = N.sinkEquals ρ * scaleOf W E "sink_unit" N.area P.cap ρ) ∧
      (¬ GivenAt W "sink_use_equals" ρ → GivenAt W "sink_use_max" ρ →
        P.inn ρ * F.taking W pw ρ ≤ N.sinkMax ρ * scaleOf W E "sink_unit" N.area P.cap ρ) := by
  have he : ∀ d ∈ (W.input "sink_use_equals").arr.dims, d ∈ ["nodes", "techs", "carriers", "timesteps"] :=
    N.sinkWithin _ (by simp)
  have hmx : ∀ d ∈ (W.input "sink_use_max").arr.dims, d ∈ ["nodes", "techs", "carriers", "timesteps"] :=
    N.sinkWithin _ (by simp)
  have hloc : LocalCases W (balanceDemand (V := V)) := by
    refine scaler_local (s := "sink_scaler") (unit := "sink_unit") rfl rfl ?_ (N.sinkWithin _ (by simp))
    intro p hp
    simp only [balanceDemand, List.mem_cons, List.not_mem_nil, or_false] at hp
    rcases hp with rfl | rfl
    · exact he
    · exact ⟨he, hmx⟩
  have hl : Local W ["nodes", "techs", "carriers", "timesteps"] (isText "base_tech" "demand") := fun d hd =>
    (by decide : ∀ d ∈ ["nodes", "techs"], d ∈ ["nodes", "techs", "carriers", "timesteps"]) d
      (N.kindWithin _ (by simp) d hd)
  have hp : Present W (balanceDemand (V := V)).foreach (balanceDemand (V := V)).top ρ :=
    (present_local hl).2 ⟨hin, (truth_isText _ _ _).2 hk⟩
  have hx : valueAt E "flow_in_inc_eff" ρ = some (P.inn ρ * F.taking W pw ρ) := by
    rw [← delivered S henum P F hd N.kindWithin hρ]
    obtain ⟨_, _, K⟩ := hd
    exact K.is.at ρ
  by_cases h1 : GivenAt W "sink_use_equals" ρ
  · have := scaled_at S henum (c := balanceDemand) (s := "sink_scaler") (unit := "sink_unit") (n := "flow_in_inc_eff")
      (amount := "sink_use_equals") (o := "==") (by simp [balanceDemand]) (by rfl) hb rfl hloc hρ hp
      (List.mem_cons_self ..) ((truth_given' _ ρ).2 h1) hu hx (N.isSinkEquals.at ρ) N.isArea P.capIs
    rw [satisfied_iff_eq this]
    exact ⟨fun h => ⟨fun _ => h, fun h' => absurd h1 h'⟩, fun h => h.1 h1⟩
  · by_cases h2 : GivenAt W "sink_use_max" ρ
    · have := scaled_at S henum (c := balanceDemand) (s := "sink_scaler") (unit := "sink_unit")
        (n := "flow_in_inc_eff") (amount := "sink_use_max") (o := "<=") (by simp [balanceDemand]) (by rfl) hb rfl hloc
        hρ hp (List.mem_cons_of_mem _ (List.mem_cons_self ..))
        ((truth_both _ _ _).2 ⟨(truth_no _ _).2 fun h => h1 ((truth_given' _ ρ).1 h), (truth_given' _ ρ).2 h2⟩)
        hu hx (N.isSinkMax.at ρ) N.isArea P.capIs
      rw [satisfied_iff_le this]
      exact ⟨fun h => ⟨fun h' => absurd h' h1, fun _ _ => h⟩, fun h => h.2 h1 h2⟩
    · have hnone : b.at ρ = none := by
        by_contra hne
        obtain ⟨_, body, subs, slices, ⟨⟨w, hm, hw⟩, _⟩⟩ :=
          (constraint_present S.wf henum (by simp [balanceDemand]) (by rfl) hb hloc hρ).1.1 hne
        simp only [balanceDemand, List.mem_cons, List.not_mem_nil, or_false, Prod.mk.injEq] at hm
        rcases hm with ⟨rfl, _⟩ | ⟨rfl, _⟩
        · exact h1 ((truth_given' _ ρ).1 hw)
        · exact h2 ((truth_given' _ ρ).1 ((truth_both _ _ _).1 hw).2)
      exact ⟨fun _ => ⟨fun h' => absurd h' h1, fun _ h' => absurd h' h2⟩, fun _ => satisfied_none hnone⟩

include S henum N in
/-- C84, least demand: a demand that is not fixed takes at least the smallest use. -/
theorem C84_demand_least {used : Point → V} {b : Arr (Option (Cell V))} (hd : Defines W E enum flowInIncEff used)
    (hb : buildConstraint W E enum balanceDemandMinUse = .ok b) (hρ : Valid W ρ)
    (hin : InModel W ["nodes", "techs", "carriers", "timesteps"] ρ) (hk : Text W "base_tech" "demand" ρ)
    (hu : UnitKnown W "sink_unit" ρ) (hg : GivenAt W "sink_use_min" ρ) (hne : ¬ GivenAt W "sink_use_equals" ρ) :
    Satisfied b ρ ↔ N.sinkMin ρ * scaleOf W E "sink_unit" N.area P.cap ρ ≤ P.inn ρ * F.taking W pw ρ := by
  have hloc : LocalCases W (balanceDemandMinUse (V := V)) := by
    refine scaler_local (s := "sink_scaler") (unit := "sink_unit") rfl rfl ?_ (N.sinkWithin _ (by simp))
    intro p hp
    simp only [balanceDemandMinUse, List.mem_cons, List.not_mem_nil, or_false] at hp
    subst hp
    trivial
  have hl : Local W ["nodes", "techs", "carriers", "timesteps"] (.chain (given "sink_use_min") (.more .and (no (given
      "sink_use_equals")) (.one .and (isText "base_tech" "demand")))) :=
    ⟨N.sinkWithin _ (by simp), N.sinkWithin _ (by simp), fun d hd =>
      (by decide : ∀ d ∈ ["nodes", "techs"], d ∈ ["nodes", "techs", "carriers", "timesteps"]) d
        (N.kindWithin _ (by simp) d hd)⟩
  have hp : Present W (balanceDemandMinUse (V := V)).foreach (balanceDemandMinUse (V := V)).top ρ := by
    refine (present_local hl).2 ⟨hin, ?_⟩
    simp only [Truth, RestTruth, connect, truth_given', truth_no, truth_isText]
    exact ⟨⟨hg, hne⟩, hk⟩
  have hx : valueAt E "flow_in_inc_eff" ρ = some (P.inn ρ * F.taking W pw ρ) := by
    rw [← delivered S henum P F hd N.kindWithin hρ]
    obtain ⟨_, _, K⟩ := hd
    exact K.is.at ρ
  exact satisfied_iff_ge (scaled_at S henum (c := balanceDemandMinUse) (s := "sink_scaler") (unit := "sink_unit")
    (n := "flow_in_inc_eff") (amount := "sink_use_min") (o := ">=") (by simp [balanceDemandMinUse]) (by rfl) hb rfl
    hloc hρ hp (List.mem_cons_self ..) (by simp) hu hx (N.isSinkMin.at ρ) N.isArea P.capIs)

include S henum N in
/-- C84, sources: where a use is given, exactly it is taken from the source; otherwise at most what there is. -/
theorem C84_source {b : Arr (Option (Cell V))}
    (hb : buildConstraint W E enum sourceAvailabilitySupply = .ok b) (hρ : Valid W ρ)
    (hin : InModel W ["nodes", "techs", "timesteps"] ρ) (hex : Exists W "source_use" ρ)
    (hu : UnitKnown W "source_unit" ρ) :
    Satisfied b ρ ↔
      (GivenAt W "source_use_equals" ρ →
        P.source ρ = N.sourceEquals ρ * scaleOf W E "source_unit" N.area P.cap ρ) ∧
      (¬ GivenAt W "source_use_equals" ρ → GivenAt W "source_use_max" ρ →
        P.source ρ ≤ N.sourceMax ρ * scaleOf W E "source_unit" N.area P.cap ρ) := by
  have he : ∀ d ∈ (W.input "source_use_equals").arr.dims, d ∈ ["nodes", "techs", "timesteps"] :=
    N.sourceWithin _ (by simp)
  have hmx : ∀ d ∈ (W.input "source_use_max").arr.dims, d ∈ ["nodes", "techs", "timesteps"] :=
    N.sourceWithin _ (by simp)
  have hloc : LocalCases W (sourceAvailabilitySupply (V := V)) := by
    refine scaler_local (s := "source_scaler") (unit := "source_unit") rfl rfl ?_ (N.sourceWithin _ (by simp))
    intro p hp
    simp only [sourceAvailabilitySupply, List.mem_cons, List.not_mem_nil, or_false] at hp
    rcases hp with rfl | rfl
    · exact he
    · exact ⟨he, hmx⟩
  have hl : Local W ["nodes", "techs", "timesteps"] (both (built "source_use") (either (given "source_use_equals")
      (given "source_use_max"))) := ⟨P.isSource.decision.within, he, hmx⟩
  have hx : valueAt E "source_use" ρ = some (P.source ρ) := P.isSource.decision.is.at ρ
  have hp : GivenAt W "source_use_equals" ρ ∨ GivenAt W "source_use_max" ρ →
      Present W (sourceAvailabilitySupply (V := V)).foreach (sourceAvailabilitySupply (V := V)).top ρ := by
    intro h
    refine (present_local hl).2 ⟨hin, (truth_both _ _ _).2 ⟨(truth_built' _ ρ).2 hex, ?_⟩⟩
    rw [truth_either, truth_given', truth_given']
    exact h
  by_cases h1 : GivenAt W "source_use_equals" ρ
  · have := scaled_at S henum (c := sourceAvailabilitySupply) (s := "source_scaler") (unit := "source_unit")
      (n := "source_use")
      (amount := "source_use_equals") (o := "==") (by simp [sourceAvailabilitySupply]) (by rfl) hb rfl hloc hρ
      (hp (.inl h1)) (List.mem_cons_self ..) ((truth_given' _ ρ).2 h1) hu hx (N.isSourceEquals.at ρ) N.isArea P.capIs
    rw [satisfied_iff_eq this]
    exact ⟨fun h => ⟨fun _ => h, fun h' => absurd h1 h'⟩, fun h => h.1 h1⟩
  · by_cases h2 : GivenAt W "source_use_max" ρ
    · have := scaled_at S henum (c := sourceAvailabilitySupply) (s := "source_scaler") (unit := "source_unit")
        (n := "source_use") (amount := "source_use_max") (o := "<=") (by simp [sourceAvailabilitySupply]) (by rfl) hb
        rfl hloc hρ (hp (.inr h2)) (List.mem_cons_of_mem _ (List.mem_cons_self ..))
        ((truth_both _ _ _).2 ⟨(truth_no _ _).2 fun h => h1 ((truth_given' _ ρ).1 h), (truth_given' _ ρ).2 h2⟩)
        hu hx (N.isSourceMax.at ρ) N.isArea P.capIs
      rw [satisfied_iff_le this]
      exact ⟨fun h => ⟨fun h' => absurd h' h1, fun _ _ => h⟩, fun h => h.2 h1 h2⟩
    · have hnone : b.at ρ = none := by
        by_contra hne
        obtain ⟨_, body, subs, slices, ⟨⟨w, hm, hw⟩, _⟩⟩ :=
          (constraint_present S.wf henum (by simp [sourceAvailabilitySupply]) (by rfl) hb hloc hρ).1.1 hne
        simp only [sourceAvailabilitySupply, List.mem_cons, List.not_mem_nil, or_false, Prod.mk.injEq] at hm
        rcases hm with ⟨rfl, _⟩ | ⟨rfl, _⟩
        · exact h1 ((truth_given' _ ρ).1 hw)
        · exact h2 ((truth_given' _ ρ).1 ((truth_both _ _ _).1 hw).2)
      exact ⟨fun _ => ⟨fun h' => absurd h' h1, fun _ h' => absurd h' h2⟩, fun _ => satisfied_none hnone⟩

include S henum N in
/-- C84, least use of a source. -/
theorem C84_source_least {b : Arr (Option (Cell V))}
    (hb : buildConstraint W E enum balanceSupplyMinUse = .ok b) (hρ : Valid W ρ)
    (hin : InModel W ["nodes", "techs", "timesteps"] ρ) (hk : Text W "base_tech" "supply" ρ)
    (hu : UnitKnown W "source_unit" ρ) (hg : GivenAt W "source_use_min" ρ) (hne : ¬ GivenAt W "source_use_equals" ρ) :
    Satisfied b ρ ↔ N.sourceMin ρ * scaleOf W E "source_unit" N.area P.cap ρ ≤ P.source ρ := by
  have hloc : LocalCases W (balanceSupplyMinUse (V := V)) := by
    refine scaler_local (s := "source_scaler") (unit := "source_unit") rfl rfl ?_ (N.sourceWithin _ (by simp))
    intro p hp
    simp only [balanceSupplyMinUse, List.mem_cons, List.not_mem_nil, or_false] at hp
    subst hp
    trivial
  have hl : Local W ["nodes", "techs", "timesteps"] (.chain (given "source_use_min") (.more .and (no (given
      "source_use_equals")) (.one .and (isText "base_tech" "supply")))) :=
    ⟨N.sourceWithin _ (by simp), N.sourceWithin _ (by simp), fun d hd =>
      (by decide : ∀ d ∈ ["nodes", "techs"], d ∈ ["nodes", "techs", "timesteps"]) d
        (N.kindWithin _ (by simp) d hd)⟩
  have hp : Present W (balanceSupplyMinUse (V := V)).foreach (balanceSupplyMinUse (V := V)).top ρ := by
    refine (present_local hl).2 ⟨hin, ?_⟩
    simp only [Truth, RestTruth, connect, truth_given', truth_no, truth_isText]
    exact ⟨⟨hg, hne⟩, hk⟩
  exact satisfied_iff_ge (scaled_at S henum (c := balanceSupplyMinUse) (s := "source_scaler") (unit := "source_unit")
    (n := "source_use") (amount := "source_use_min") (o := ">=") (by simp [balanceSupplyMinUse]) (by rfl) hb rfl
    hloc hρ hp (List.mem_cons_self ..) (by simp) hu (P.isSource.decision.is.at ρ) (N.isSourceMin.at ρ) N.isArea P.capIs)

include S henum N in
/-- C84, supply: the outflow of each carrier, with losses, is all that is taken from the source and not lost. -/
theorem C84_supply {used : Point → V} {b : Arr (Option (Cell V))} (hd : Defines W E enum flowOutIncEff used)
    (hb : buildConstraint W E enum balanceSupplyNoStorage = .ok b) (hρ : Valid W ρ)
    (hin : InModel W ["nodes", "techs", "carriers", "timesteps"] ρ) (hk : Text W "base_tech" "supply" ρ)
    (hns : ¬ Flag W "include_storage" ρ) (hz : F.giving W pw ρ ≠ 0) :
    Satisfied b ρ ↔ P.out ρ / F.giving W pw ρ = P.source ρ * N.sourceEff ρ := by
  have hl : Local W ["nodes", "techs", "carriers", "timesteps"] (both (isText "base_tech" "supply")
      (no (isTrue "include_storage"))) :=
    ⟨fun d hd => (by decide : ∀ d ∈ ["nodes", "techs"], d ∈ ["nodes", "techs", "carriers", "timesteps"]) d
        (N.kindWithin _ (by simp) d hd),
      fun d hd => (by decide : ∀ d ∈ ["nodes", "techs", "timesteps"], d ∈ ["nodes", "techs", "carriers", "timesteps"]) d
        (N.sourceWithin "include_storage" (by simp) d hd)⟩
  obtain ⟨_, h2⟩ := single_reads S.wf henum (by simp) hb hl hρ (by simp [subRefs, subRefsRest, bin])
    (by simp [sliceRefs, sliceRefsRest, bin]) (by plain_sides) (by plain_sides)
  have := h2 hin ((truth_both _ _ _).2 ⟨(truth_isText _ _ _).2 hk, (truth_no _ _).2 fun h =>
    hns ((truth_isTrue _ _).1 h)⟩)
  rw [plain_val, plain_val, val_bin, val_comp, val_comp, val_comp, N.isSourceEff.at,
    show valueAt E "source_use" ρ = some (P.source ρ) from P.isSource.decision.is.at ρ, S.numbers.times] at this
  have hx : valueAt E "flow_out_inc_eff" ρ = some (P.out ρ / F.giving W pw ρ) := by
    rw [← drawn S henum P F hd N.kindWithin hρ hz]
    obtain ⟨_, _, K⟩ := hd
    exact K.is.at ρ
  rw [hx] at this
  exact satisfied_iff_eq this

include S henum N in
/-- C84, supply of one carrier: what a supply technology gives out of all carriers, with losses, is all that is taken
from the source and not lost. With several carriers each of them gets all of it. -/
theorem C84_supply_partial {used : Point → V} {b : Arr (Option (Cell V))} (hd : Defines W E enum flowOutIncEff used)
    (hb : buildConstraint W E enum balanceSupplyNoStorage = .ok b) (hρ : Valid W ρ) (hs : Satisfied b ρ)
    (hin : InModel W ["nodes", "techs", "carriers", "timesteps"] ρ) (hk : Text W "base_tech" "supply" ρ)
    (hns : ¬ Flag W "include_storage" ρ) (hz : F.giving W pw ρ ≠ 0) (hnd : (E.coords "carriers").Nodup)
    (hone : ∀ l ∈ W.coords "carriers", l ≠ ρ "carriers" → ¬ Exists W "flow_out" (set ρ "carriers" l)) :
    sumOver E "carriers" (fun σ => P.out σ / F.giving W pw σ) ρ = P.source ρ * N.sourceEff ρ := by
  rw [← (C84_supply S henum P N F hd hb hρ hin hk hns hz).1 hs]
  unfold sumOver
  rw [List.sum_map_eq_nsmul_single (ρ "carriers"), List.count_eq_one_of_mem hnd (by rw [S.coords]; exact hρ _), one_smul]
  · congr 2 <;> exact Expr.set_self _ _
  · intro l hne hl
    have hv := set_valid (W := W) hρ (d := "carriers") (l := l) (by rw [← S.coords]; exact hl)
    have h0 : P.out (set ρ "carriers" l) = 0 := by
      by_contra h
      exact hone l (by rw [← S.coords]; exact hl) hne (P.isOut.decision.only _ hv h).2
    simp only [h0, zero_div]

end

end BaseMath
end Calliope
