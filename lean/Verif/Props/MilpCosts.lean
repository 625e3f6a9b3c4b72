import Verif.Spec.MilpCosts
import Verif.Props.Costs

/-!
# C95: costs of purchases, and costs in operate mode
-/

namespace Calliope
namespace BaseMath

open Grid Infix Expr Expand Build Where

variable {V : Type}

section
variable [Field V] {W : Where.Env} {E : Expr.Env V} {pw : V → V → V} {enum : List String → List String}
  {b : Arr (Option V)} {f : Point → V} {ρ : Point}
variable (S : Setting W E pw) (F : Frame W) (C : CostModel W E) (H : CostShapes W) (henum : Traverses enum)
  (P : PurchaseModel W E) (hw : ∀ d ∈ (W.input "cost_purchase").arr.dims, d ∈ ["nodes", "techs", "costs"])
include S henum

section
include F H

omit F in
theorem flow_decision (D : Defines W E enum costInvestmentFlowCap f) :
    Decision W E "cost_investment_flow_cap" ["nodes", "techs", "carriers", "costs"] f := by
  have htech : ∀ d ∈ (W.input "base_tech").arr.dims, d ∈ ["nodes", "techs", "carriers", "costs"] := fun d hd =>
    (by decide : ∀ d ∈ ["nodes", "techs"], d ∈ ["nodes", "techs", "carriers", "costs"]) d (H.tech _ (by simp) d hd)
  refine defines_decision S henum (by simp [costInvestmentFlowCap]) (by rfl) ?_ D
  refine ⟨?_, ?_, by simp [costInvestmentFlowCap]⟩
  · intro p hp
    simp only [costInvestmentFlowCap, List.mem_singleton] at hp
    subst hp
    trivial
  · intro s hs p hp
    simp only [costInvestmentFlowCap, List.mem_singleton] at hs
    subst hs
    simp only [List.mem_cons, List.not_mem_nil, or_false] at hp
    rcases hp with rfl | rfl
    · exact htech
    · exact htech

omit F in
theorem running_decision (D : Defines W E enum costOperationVariable f) :
    Decision W E "cost_operation_variable" ["nodes", "techs", "costs", "timesteps"] f := by
  refine defines_decision S henum (by simp [costOperationVariable]) (by rfl) ?_ D
  refine ⟨?_, ?_, by simp [costOperationVariable]⟩
  · intro p hp
    simp only [costOperationVariable, List.mem_singleton] at hp
    subst hp
    trivial
  · have htech : ∀ d ∈ (W.input "base_tech").arr.dims, d ∈ ["nodes", "techs", "costs", "timesteps"] := fun d hd =>
      (by decide : ∀ d ∈ ["nodes", "techs"], d ∈ ["nodes", "techs", "costs", "timesteps"]) d
        (H.tech _ (by simp) d hd)
    intro s hs p hp
    simp only [costOperationVariable, List.mem_cons, List.not_mem_nil, or_false] at hs
    rcases hs with rfl | rfl | rfl <;> simp only [List.mem_cons, List.not_mem_nil, or_false] at hp
    · subst hp; trivial
    · rcases hp with rfl | rfl
      · exact htech
      · exact htech
    · subst hp; trivial

/-- C95, operate mode: the cost of a technology at a node is the sum over the time steps of what its flows cost, each
step times its weight. -/
theorem C95_operate (X : OperateExpressions W E enum) (hρ : Valid W ρ) :
    X.cost ρ = sumOver E "timesteps" C.variableCost ρ := by
  have K2 := running_decision S H henum X.isVariable
  obtain ⟨b, hb, K⟩ := X.isCost
  obtain ⟨h1, h2⟩ := single_expr S.wf S.coords henum (by simp) hb hρ
    (by simp [findSubs, bodySlices, under, subRefs, sliceRefs]) (by simp [Ok, Apart, NoOps])
  have e1 := (den_sum (sl := fun n => List.lookup n []) (es := []) (den_comp K2.is) (d := "timesteps") (by simp)
    (coords_ne S F henum (by simp)) (by simp)).1 ρ
  rw [← sumOver_congr (f := X.running) (g := C.variableCost)
    (fun l hl => variableCost_eq S F C H henum X.isVariable (set_valid hρ (by rw [← S.coords]; exact hl)))]
  refine K.eq hρ (fun h => (h2 (h1.1 h)).trans ((plain_val _ _).trans e1)) ?_
  intro hnone
  apply sumOver_zero
  intro l hl
  by_contra h0
  obtain ⟨g1, g2⟩ := K2.only _ (set_valid hρ (by rw [← S.coords]; exact hl)) h0
  exact h1.2 (present_of (by decide) g1 (sameAlong_set (by decide) l) g2 K2.within
    (fun σ hσ _ => (truth_built' _ _).2 hσ)) hnone

/-! ### Purchases -/

include hw

omit F in
theorem purchase_present (D : buildExpression W E enum costInvestmentPurchase = .ok b) (hρ : Valid W ρ) :
    (b.at ρ ≠ none ↔ InModel W ["nodes", "techs", "costs"] ρ ∧ GivenAt W "cost_purchase" ρ ∧
      Exists W "purchased_units" ρ) ∧ (b.at ρ ≠ none → b.at ρ = some (P.cost C.distance ρ)) := by
  have htech : ∀ d ∈ (W.input "base_tech").arr.dims, d ∈ ["nodes", "techs", "costs"] := fun d hd =>
    (by decide : ∀ d ∈ ["nodes", "techs"], d ∈ ["nodes", "techs", "costs"]) d (H.tech _ (by simp) d hd)
  have hloc : LocalDef W (costInvestmentPurchase (V := V)) := by
    apply localDef_leaves
    intro l hl
    simp only [allLeaves, costInvestmentPurchase, leaves, leavesRest, both, either, built, given, no, isText, always,
      List.flatMap_cons, List.flatMap_nil, List.append_nil, List.cons_append, List.nil_append, List.mem_cons,
      List.not_mem_nil, or_false] at hl
    rcases hl with rfl | rfl | rfl | rfl
    · exact hw
    · exact fun a ha d hd => (by decide : ∀ d ∈ ["nodes", "techs"], d ∈ ["nodes", "techs", "costs"]) d
        (P.isUnits.within a ha d hd)
    · exact htech
    · exact htech
  obtain ⟨h1, h2⟩ := expression_reads S.wf S.coords henum (by simp [costInvestmentPurchase]) (by rfl) D hloc hρ
  have htop : Truth W ρ (costInvestmentPurchase (V := V)).top ↔
      GivenAt W "cost_purchase" ρ ∧ Exists W "purchased_units" ρ := by
    simp only [costInvestmentPurchase, truth_both, truth_built', truth_given']
  have hr : ∀ {w : Cond} {t : Ex V}, (w, Body.arith t) ∈ (costInvestmentPurchase (V := V)).defn.equations →
      Truth W ρ w → Reads W costInvestmentPurchase ρ (.arith t) [] [] := by
    intro w t hm hw
    refine reads_nil hm hw ?_ ?_ <;>
    · simp only [costInvestmentPurchase, List.mem_cons, Prod.mk.injEq, Body.arith.injEq, List.not_mem_nil,
        or_false] at hm
      rcases hm with ⟨_, rfl⟩ | ⟨_, rfl⟩ <;> rfl
  have key : InModel W ["nodes", "techs", "costs"] ρ → GivenAt W "cost_purchase" ρ ∧
      Exists W "purchased_units" ρ → b.at ρ = some (P.cost C.distance ρ) := by
    intro g1 g2
    unfold PurchaseModel.cost
    by_cases ht : Text W "base_tech" "transmission" ρ
    · rw [if_pos ht, h2 _ _ _ g1 (htop.2 g2) (hr (by exact List.mem_cons_self ..) ((truth_isText _ _ _).2 ht))
        (by simp [Expr.inline, Expr.inlineRest, bin, bin3, Ok, OkRest, List.lookup])
        (by simp [Expr.inline, Expr.inlineRest, bin, bin3, Apart, ApartRest, List.lookup]), readAs_nil, plain_val,
        val_bin3, val_bin, val_bin]
      simp only [val_comp, val_num, P.isPerUnit.is.at, P.isPerUnitDistance.is.at, C.isDistance.at, P.isUnits.is.at,
        S.numbers.plus, S.numbers.times]
      congr 1
      ring
    · rw [if_neg ht, h2 _ _ _ g1 (htop.2 g2) (hr (by exact List.mem_cons_of_mem _ (List.mem_cons_self ..))
        (by simpa [truth_isText] using ht))
        (by simp [Expr.inline, Expr.inlineRest, bin, Ok, OkRest, List.lookup])
        (by simp [Expr.inline, Expr.inlineRest, bin, Apart, ApartRest, List.lookup]), readAs_nil, plain_val, val_bin]
      simp only [val_comp, P.isPerUnit.is.at, P.isUnits.is.at, S.numbers.times]
  have hall : b.at ρ ≠ none ↔ InModel W ["nodes", "techs", "costs"] ρ ∧ GivenAt W "cost_purchase" ρ ∧
      Exists W "purchased_units" ρ := by
    constructor
    · intro h
      have := h1.1 h
      exact ⟨this.1, htop.1 this.2.1⟩
    · rintro ⟨g1, g2⟩ h
      rw [key g1 g2] at h
      simp at h
  exact ⟨hall, fun h => key (hall.1 h).1 (hall.1 h).2⟩

/-- C95, purchases: what the purchases of a technology at a node cost is its price times its units (for each end of a
link one half, including the price per distance) - under the condition that a link with a price per distance has a
price as well (see `C95_unpriced`). -/
theorem C95_purchase_partial (D : Defines W E enum costInvestmentPurchase f) (hρ : Valid W ρ) (hp : Priced W ρ) :
    f ρ = P.cost C.distance ρ := by
  obtain ⟨b, hb, K⟩ := D
  obtain ⟨h1, h2⟩ := purchase_present S C H henum P hw hb hρ
  refine K.eq hρ h2 ?_
  intro hnone
  by_contra h0
  have hx := P.isUnits.only ρ hρ (fun h => h0 (by unfold PurchaseModel.cost; rw [h, mul_zero]))
  refine h1.2 ⟨?_, ?_, hx.2⟩ hnone
  · refine inModel_more hρ hx.1 (fun d hd => F.dims d ((by decide : ∀ d ∈ ["nodes", "techs", "costs"],
      d ∈ ["nodes", "techs", "carriers", "costs", "timesteps"]) d hd)) ?_
    intro d hd hd'
    have := F.matrix d hd
    simp only [List.mem_cons, List.not_mem_nil, or_false] at hd' this ⊢
    rcases this with rfl | rfl | rfl
    · exact .inl rfl
    · exact .inr rfl
    · simp at hd'
  · by_contra hg
    apply h0
    unfold PurchaseModel.cost
    rw [P.isPerUnit.missing ρ hρ hg]
    by_cases ht : Text W "base_tech" "transmission" ρ
    · rw [P.isPerUnitDistance.missing ρ hρ (fun h => hg (hp ht h))]
      simp
    · simp [ht]

omit F in
include C P in
/-- Purchases without a price cost nothing, also those of a link that has a price per distance. -/
theorem C95_unpriced (D : Defines W E enum costInvestmentPurchase f) (hρ : Valid W ρ)
    (hg : ¬ GivenAt W "cost_purchase" ρ) : f ρ = 0 := by
  obtain ⟨b, hb, K⟩ := D
  have h1 := (purchase_present S C H henum P hw hb hρ).1
  refine K.eq hρ (fun h => absurd (h1.1 h).2.1 hg) (fun _ => rfl)

omit F in
include C P in
theorem purchase_decision (D : Defines W E enum costInvestmentPurchase f) :
    Decision W E "cost_investment_purchase" ["nodes", "techs", "costs"] f := by
  obtain ⟨b, hb, K⟩ := D
  exact known_decision K (fun ρ hρ h => ((purchase_present S C H henum P hw hb hρ).1.1 h).1)

/-- C95, links: what the purchase of a link costs at its two ends together is its price, with its price per distance
times its length, times its units. -/
theorem C95_link [CharZero V] (D : Defines W E enum costInvestmentPurchase f) (hρ : Valid W ρ) {u v : Label}
    {p q d x : V} (K : LinkPurchase P C.distance ρ u v p q d x) :
    sumOver E "nodes" f ρ = (p + q * d) * x := by
  have hm : ∀ l ∈ [u, v], l ∈ W.coords "nodes" := by
    intro l hl
    simp only [List.mem_cons, List.not_mem_nil, or_false] at hl
    rcases hl with rfl | rfl
    · exact K.nodes.1
    · exact K.nodes.2.1
  have hcost : ∀ l ∈ [u, v], f (set ρ "nodes" l) = (p + q * d) * (1 / 2) * x := by
    intro l hl
    rw [C95_purchase_partial S F C H henum P hw D (set_valid hρ (hm l hl)) (fun _ _ => K.priced l hl)]
    unfold PurchaseModel.cost
    rw [if_pos (K.kind l hl), K.isPrice l hl, K.isPerDistance l hl, K.isDistance l hl, K.isUnits l hl]
  rw [sumOver_pair K.differ (by rw [S.coords]; exact K.nodes.1) (by rw [S.coords]; exact K.nodes.2.1)
    (by rw [S.coords]; exact K.nodes.2.2), hcost u (by simp), hcost v (by simp)]
  · have h2 : (2 : V) ≠ 0 := two_ne_zero
    field_simp
    ring
  · intro l hl h1 h2
    have hv : Valid W (set ρ "nodes" l) := set_valid hρ (by rw [← S.coords]; exact hl)
    by_contra h0
    have := (purchase_decision S C H henum P hw D).only _ hv h0
    obtain ⟨b, hb, K'⟩ := D
    have hne := K'.absent hv h0
    have he := (purchase_present S C H henum P hw hb hv).2 hne
    apply h0
    rw [K'.value _ hv, he]
    simp [PurchaseModel.cost, K.elsewhere l h1 h2]

/-! ### Investment -/

omit H hw in
/-- Investment, in terms of its parts. -/
theorem invest_parts_milp {f1 f2 f3 f4 f5 : Point → V} (D : Defines W E enum costInvestmentMilp f)
    (K1 : Decision W E "cost_investment_flow_cap" ["nodes", "techs", "carriers", "costs"] f1)
    (K2 : Decision W E "cost_investment_storage_cap" ["nodes", "techs", "costs"] f2)
    (K3 : Decision W E "cost_investment_source_cap" ["nodes", "techs", "costs"] f3)
    (K4 : Decision W E "cost_investment_area_use" ["nodes", "techs", "costs"] f4)
    (K5 : Decision W E "cost_investment_purchase" ["nodes", "techs", "costs"] f5) (hρ : Valid W ρ) :
    f ρ = sumOver E "carriers" f1 ρ + f2 ρ + f3 ρ + f4 ρ + f5 ρ := by
  obtain ⟨b, hb, K⟩ := D
  obtain ⟨h1, h2⟩ := single_expr S.wf S.coords henum (by simp) hb hρ
    (by simp [findSubs, bodySlices, under, subRefs, subRefsRest, sliceRefs, sliceRefsRest])
    (by simp [Ok, OkRest, Apart, ApartRest, NoOps])
  have hv : plain E (.chain (.sum (.comp "cost_investment_flow_cap") ["carriers"]) (.more .plus (.comp
      "cost_investment_storage_cap") (.more .plus (.comp "cost_investment_source_cap") (.more .plus (.comp
      "cost_investment_area_use") (.one .plus (.comp "cost_investment_purchase")))))) ρ =
      some (sumOver E "carriers" f1 ρ + f2 ρ + f3 ρ + f4 ρ + f5 ρ) := by
    have e1 := (den_sum (sl := fun n => List.lookup n []) (es := []) (den_comp K1.is) (d := "carriers") (by simp)
      (coords_ne S F henum (by simp)) (by simp)).1 ρ
    have e2 := mean_comp (slices := fun n => List.lookup n []) K2.is ρ
    have e3 := mean_comp (slices := fun n => List.lookup n []) K3.is ρ
    have e4 := mean_comp (slices := fun n => List.lookup n []) K4.is ρ
    have e5 := mean_comp (slices := fun n => List.lookup n []) K5.is ρ
    unfold val at e1
    unfold plain
    rw [mean, meanRest, meanRest, meanRest, meanRest]
    simp only [mask_true, e1, e2, e3, e4, e5, S.numbers.plus]
  refine K.eq hρ (fun h => (h2 (h1.1 h)).trans hv) ?_
  intro hnone
  have ht : ∀ σ, Truth W σ (costInvestmentMilp (V := V)).top ↔ ((((Exists W "cost_investment_flow_cap" σ ∨
      Exists W "cost_investment_storage_cap" σ) ∨ Exists W "cost_investment_source_cap" σ) ∨
      Exists W "cost_investment_area_use" σ) ∨ Exists W "cost_investment_purchase" σ) := by
    intro σ
    simp only [costInvestmentMilp, single, Truth, RestTruth, connect, truth_built']
  have hno : ∀ {n : String} {ds : List String} {g : Point → V}, Decision W E n ds g →
      (∀ d ∈ ["nodes", "techs", "costs"], d ∈ ds) → (∀ σ, Exists W n σ → Truth W σ (costInvestmentMilp (V := V)).top) →
      ∀ τ, Valid W τ → SameAlong ["nodes", "techs", "costs"] ρ τ → g τ = 0 := by
    intro n ds g K' hsub htop τ hτ hs
    by_contra h0
    obtain ⟨g1, g2⟩ := K'.only τ hτ h0
    exact h1.2 (present_of hsub g1 hs g2 K'.within (fun σ hσ _ => htop σ hσ)) hnone
  have hrefl : SameAlong ["nodes", "techs", "costs"] ρ ρ := fun _ _ => rfl
  rw [hno K2 (by decide) (fun σ h => (ht σ).2 (.inl (.inl (.inl (.inr h))))) ρ hρ hrefl,
    hno K3 (by decide) (fun σ h => (ht σ).2 (.inl (.inl (.inr h)))) ρ hρ hrefl,
    hno K4 (by decide) (fun σ h => (ht σ).2 (.inl (.inr h))) ρ hρ hrefl,
    hno K5 (by decide) (fun σ h => (ht σ).2 (.inr h)) ρ hρ hrefl, sumOver_zero]
  · simp
  · intro l hl
    exact hno K1 (by decide) (fun σ h => (ht σ).2 (.inl (.inl (.inl (.inl h))))) _
      (set_valid hρ (by rw [← S.coords]; exact hl)) (sameAlong_set (by decide) l)

variable (X : MilpExpressions W E enum)

/-- C95, investment: with units, the investment of a technology at a node is that of a model without them, and what its
purchases cost. -/
theorem C95_investment_partial (hρ : Valid W ρ) (hp : Priced W ρ) :
    X.invest ρ = C.invest ρ + P.cost C.distance ρ := by
  obtain ⟨d2, e2⟩ := cap_decision S F henum X.isStorageCap C.isPerStorageCap C.isStorageCap (H.caps _ (by simp))
  obtain ⟨d3, e3⟩ := cap_decision S F henum X.isSourceCap C.isPerSourceCap C.isSourceCap (H.caps _ (by simp))
  obtain ⟨d4, e4⟩ := cap_decision S F henum X.isArea C.isPerArea C.isArea (H.caps _ (by simp))
  rw [invest_parts_milp S F henum X.isInvest (flow_decision S H henum X.isFlowCap) d2 d3 d4
    (purchase_decision S C H henum P hw X.isPurchase) hρ, e2 ρ hρ, e3 ρ hρ, e4 ρ hρ,
    C95_purchase_partial S F C H henum P hw X.isPurchase hρ hp]
  unfold CostModel.invest
  rw [sumOver_congr (f := X.flowCap) (g := C.flowCapCost)]
  intro l hl
  obtain ⟨b, hb, K⟩ := X.isFlowCap
  exact flowCapCost_eq S F C H henum hb K (set_valid hρ (by rw [← S.coords]; exact hl))

omit H F hw in
theorem invest_decision_milp : Decision W E "cost_investment" ["nodes", "techs", "costs"] X.invest := by
  refine defines_decision S henum (by simp [costInvestmentMilp, single]) (by rfl) ?_ X.isInvest
  refine ⟨?_, by simp [costInvestmentMilp, single], by simp [costInvestmentMilp, single]⟩
  intro q hq
  simp only [costInvestmentMilp, single, List.mem_singleton] at hq
  subst hq
  trivial

/-- C95, breakdown: the cost of a technology with units at a node is its annualised investment, the sum over the time
steps of what its flows cost, each step times its weight, and the costs of the modelled part of the year that do not
depend on flows - in which the share of the investment includes what its purchases cost. -/
theorem C95_breakdown_partial (hci : CostInputs W) (h8760 : (8760 : V) ≠ 0) (hρ : Valid W ρ) (hp : Priced W ρ) :
    X.cost ρ = X.annual ρ + sumOver E "timesteps" C.variableCost ρ +
      C.years ρ * (sumOver E "carriers" (fun σ => C.perYear σ * C.flowCap σ) ρ +
        (C.invest ρ + P.cost C.distance ρ) * C.fraction ρ) := by
  have d1 : Decision W E "cost_investment_annualised" ["nodes", "techs", "costs"] X.annual := by
    obtain ⟨b, hb, K⟩ := X.isAnnual
    exact known_decision K (fun ρ hρ h => ((cost_at S hci henum hb hρ).1.1 h).1)
  have d3 : Decision W E "cost_operation_fixed" ["nodes", "techs", "costs"] X.fixed := by
    refine defines_decision S henum (by simp [costOperationFixed]) (by rfl) ?_ X.isFixed
    refine ⟨?_, ?_, by simp [costOperationFixed]⟩
    · intro p hp
      simp only [costOperationFixed, List.mem_singleton] at hp
      subst hp
      trivial
    · intro s hs p hp
      simp only [costOperationFixed, List.mem_singleton] at hs
      subst hs
      simp only [List.mem_singleton] at hp
      subst hp
      trivial
  rw [total_parts S F henum X.isCost d1 (running_decision S H henum X.isVariable) d3 hρ,
    fixedCost_parts S F C H henum X.isFixed (invest_decision_milp S henum X) h8760 hρ,
    C95_investment_partial S F C H henum P hw X hρ hp]
  rw [sumOver_congr (f := X.running) (g := C.variableCost)]
  intro l hl
  exact variableCost_eq S F C H henum X.isVariable (set_valid hρ (by rw [← S.coords]; exact hl))

/-- C95, annualised investment: the part of the year that is modelled, times the rate, times the investment, with what
the purchases cost. -/
theorem C95_annual_partial (hci : CostInputs W) (h8760 : (8760 : V) ≠ 0) {rate interest lifetime : Point → V}
    (i1 : Is E "cost_depreciation_rate" [] rate) (i2 : Is E "cost_interest_rate" [] interest)
    (i3 : Is E "lifetime" [] lifetime) (hρ : Valid W ρ) (hp : Priced W ρ) {r : V}
    (hr : AnnualRate W pw rate interest lifetime ρ r) :
    X.annual ρ = C.years ρ * r * (C.invest ρ + P.cost C.distance ρ) := by
  rw [← C95_investment_partial S F C H henum P hw X hρ hp]
  obtain ⟨b, hb, K⟩ := X.isAnnual
  have hI := invest_decision_milp S henum X
  let D : CostData E := ⟨C.hours, C.weight, X.invest, interest, rate, lifetime, C.isHours, C.isWeight,
    ⟨hI.is.choose, hI.is.choose_spec.1, hI.is.choose_spec.2.1, .inl (by simp)⟩, i2, i1, i3⟩
  have hlab : W.coords "timesteps" ≠ [] := F.labels _ (by simp)
  refine K.eq hρ ?_ ?_
  · intro hne
    obtain ⟨g1, g2, _⟩ := (cost_at S hci henum hb hρ).1.1 hne
    obtain ⟨v1, v2, v3⟩ := C64_value S hci D hlab h8760 henum hb hρ g1 g2
    rcases hr with ⟨h, rfl⟩ | ⟨h, h', h'', rfl⟩ | ⟨h, h', h'', rfl⟩
    · exact v1 h
    · exact v2 h h' h''
    · exact v3 h h' h''
  · intro hnone
    by_contra h0
    obtain ⟨g1, g2⟩ := hI.only ρ hρ (fun h => h0 (by rw [h, mul_zero]))
    refine (cost_at S hci henum hb hρ).1.2 ⟨g1, g2, ?_⟩ hnone
    rcases hr with ⟨h, rfl⟩ | ⟨h, h', h'', rfl⟩ | ⟨h, h', h'', rfl⟩
    · exact ⟨0, inCase_iff.2 (.inl ⟨rfl, h⟩)⟩
    · exact ⟨1, inCase_iff.2 (.inr (.inl ⟨rfl, h, h'.imp_right .inl⟩))⟩
    · exact ⟨2, inCase_iff.2 (.inr (.inr ⟨rfl, h, .inl h'⟩))⟩

end

end

end BaseMath
end Calliope
