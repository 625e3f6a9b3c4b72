import Mathlib.Tactic.LinearCombination
import Verif.Proofs.Costs
import Verif.Props.BaseCost
import Verif.Model.BaseLimits

/-!
# C81: costs and the objective
-/

namespace Calliope
namespace BaseMath

open Grid Infix Expr Expand Build Where

variable {V : Type}

section
variable [Field V] {W : Where.Env} {E : Expr.Env V} {pw : V → V → V} {enum : List String → List String}
  {b : Arr (Option V)} {ρ : Point}

section
variable (S : Setting W E pw) (F : Frame W) (C : CostModel W E) (H : CostShapes W) (henum : Traverses enum)
  (X : CostExpressions W E enum)
include S F henum

theorem cap_decision {name price var : String} {f p x : Point → V} (D : Defines W E enum (single name
      ["nodes", "techs", "costs"] (both (given price) (built var)) (.arith (bin (.comp price) .times (.comp var)))) f)
    (P : Price W E price p) (Y : Decision W E var ["nodes", "techs"] x)
    (hw : ∀ d ∈ (W.input price).arr.dims, d ∈ ["nodes", "techs", "costs"]) :
    Decision W E name ["nodes", "techs", "costs"] f ∧ ∀ ρ, Valid W ρ → f ρ = p ρ * x ρ := by
  refine ⟨?_, ?_⟩
  · refine defines_decision S henum (by simp [single]) ?_ ?_ D
    · simp [resolved, single, findSubs, bodySlices, under, bin, subRefs, subRefsRest, sliceRefs, sliceRefsRest]
    · refine ⟨?_, by simp [single], by simp [single]⟩
      intro q hq
      simp only [single, List.mem_singleton] at hq
      subst hq
      trivial
  · obtain ⟨b, hb, K⟩ := D
    exact fun ρ hρ => capCost_eq S F henum hb K P Y hw hρ

include H

/-- C81, investment: the investment of a technology at a node is, summed over its carriers, the price of flow capacity
times that capacity (for each end of a link one half, including the price per distance), and the prices of storage,
source capacity and area times those. -/
theorem C81_investment (hρ : Valid W ρ) : X.invest ρ = C.invest ρ := by
  have htech : ∀ d ∈ (W.input "base_tech").arr.dims, d ∈ ["nodes", "techs", "carriers", "costs"] := fun d hd =>
    (by decide : ∀ d ∈ ["nodes", "techs"], d ∈ ["nodes", "techs", "carriers", "costs"]) d (H.tech _ (by simp) d hd)
  have d1 : Decision W E "cost_investment_flow_cap" ["nodes", "techs", "carriers", "costs"] X.flowCap := by
    refine defines_decision S henum (by simp [costInvestmentFlowCap]) (by rfl) ?_ X.isFlowCap
    refine ⟨?_, ?_, by simp [costInvestmentFlowCap]⟩
    · intro p hp
      simp only [costInvestmentFlowCap, List.mem_singleton] at hp
      subst hp
      trivial
    · intro s hs p hp
      simp only [costInvestmentFlowCap, List.mem_singleton] at hs
      subst hs
      simp only [List.mem_cons, List.not_mem_nil, or_false] at hp
      rcases hp with rfl | rfl
      · exact htech
      · exact htech
  obtain ⟨d2, e2⟩ := cap_decision S F henum X.isStorageCap C.isPerStorageCap C.isStorageCap (H.caps _ (by simp))
  obtain ⟨d3, e3⟩ := cap_decision S F henum X.isSourceCap C.isPerSourceCap C.isSourceCap (H.caps _ (by simp))
  obtain ⟨d4, e4⟩ := cap_decision S F henum X.isArea C.isPerArea C.isArea (H.caps _ (by simp))
  rw [invest_parts S F henum X.isInvest d1 d2 d3 d4 hρ, e2 ρ hρ, e3 ρ hρ, e4 ρ hρ]
  unfold CostModel.invest
  rw [sumOver_congr (f := X.flowCap) (g := C.flowCapCost)]
  intro l hl
  obtain ⟨b, hb, K⟩ := X.isFlowCap
  exact flowCapCost_eq S F C H henum hb K (set_valid hρ (by rw [← S.coords]; exact hl))

omit H F in
theorem invest_decision : Decision W E "cost_investment" ["nodes", "techs", "costs"] X.invest := by
  refine defines_decision S henum (by simp [costInvestment, single]) (by rfl) ?_ X.isInvest
  refine ⟨?_, by simp [costInvestment, single], by simp [costInvestment, single]⟩
  intro q hq
  simp only [costInvestment, single, List.mem_singleton] at hq
  subst hq
  trivial

omit H F in
theorem annual_decision (hw : CostInputs W) :
    Decision W E "cost_investment_annualised" ["nodes", "techs", "costs"] X.annual := by
  obtain ⟨b, hb, K⟩ := X.isAnnual
  exact known_decision K (fun ρ hρ h => ((cost_at S hw henum hb hρ).1.1 h).1)

/-- C81, breakdown: the cost of a technology at a node is its annualised investment, the sum over the time steps of what
its flows cost, each step times its weight, and the costs of the modelled part of the year that do not depend on
flows. -/
theorem C81_breakdown (hw : CostInputs W) (h8760 : (8760 : V) ≠ 0) (hρ : Valid W ρ) :
    X.cost ρ = C.total X.annual ρ := by
  have d2 : Decision W E "cost_operation_variable" ["nodes", "techs", "costs", "timesteps"] X.running := by
    refine defines_decision S henum (by simp [costOperationVariable]) (by rfl) ?_ X.isVariable
    refine ⟨?_, ?_, by simp [costOperationVariable]⟩
    · intro p hp
      simp only [costOperationVariable, List.mem_singleton] at hp
      subst hp
      trivial
    · have htech : ∀ d ∈ (W.input "base_tech").arr.dims, d ∈ ["nodes", "techs", "costs", "timesteps"] := fun d hd =>
        (by decide : ∀ d ∈ ["nodes", "techs"], d ∈ ["nodes", "techs", "costs", "timesteps"]) d
          (H.tech _ (by simp) d hd)
      intro s hs p hp
      simp only [costOperationVariable, List.mem_cons, List.not_mem_nil, or_false] at hs
      rcases hs with rfl | rfl | rfl <;> simp only [List.mem_cons, List.not_mem_nil, or_false] at hp
      · subst hp; trivial
      · rcases hp with rfl | rfl
        · exact htech
        · exact htech
      · subst hp; trivial
  have d3 : Decision W E "cost_operation_fixed" ["nodes", "techs", "costs"] X.fixed := by
    refine defines_decision S henum (by simp [costOperationFixed]) (by rfl) ?_ X.isFixed
    refine ⟨?_, ?_, by simp [costOperationFixed]⟩
    · intro p hp
      simp only [costOperationFixed, List.mem_singleton] at hp
      subst hp
      trivial
    · intro s hs p hp
      simp only [costOperationFixed, List.mem_singleton] at hs
      subst hs
      simp only [List.mem_singleton] at hp
      subst hp
      trivial
  rw [total_parts S F henum X.isCost (annual_decision S henum X hw) d2 d3 hρ,
    fixedCost_parts S F C H henum X.isFixed (invest_decision S henum X) h8760 hρ,
    C81_investment S F C H henum X hρ]
  unfold CostModel.total CostModel.fixedCost
  rw [sumOver_congr (f := X.running) (g := C.variableCost)]
  intro l hl
  exact variableCost_eq S F C H henum X.isVariable (set_valid hρ (by rw [← S.coords]; exact hl))

/-- C81, annualised investment: the part of the year that is modelled, times the rate, times the investment. -/
theorem C81_annual (hw : CostInputs W) (h8760 : (8760 : V) ≠ 0) {rate interest lifetime : Point → V}
    (i1 : Is E "cost_depreciation_rate" [] rate) (i2 : Is E "cost_interest_rate" [] interest)
    (i3 : Is E "lifetime" [] lifetime) (hρ : Valid W ρ) {r : V} (hr : AnnualRate W pw rate interest lifetime ρ r) :
    X.annual ρ = C.years ρ * r * C.invest ρ := by
  rw [← C81_investment S F C H henum X hρ]
  obtain ⟨b, hb, K⟩ := X.isAnnual
  have hI := invest_decision S henum X
  let D : CostData E := ⟨C.hours, C.weight, X.invest, interest, rate, lifetime, C.isHours, C.isWeight,
    ⟨hI.is.choose, hI.is.choose_spec.1, hI.is.choose_spec.2.1, .inl (by simp)⟩, i2, i1, i3⟩
  have hlab : W.coords "timesteps" ≠ [] := F.labels _ (by simp)
  refine K.eq hρ ?_ ?_
  · intro hne
    obtain ⟨g1, g2, _⟩ := (cost_at S hw henum hb hρ).1.1 hne
    obtain ⟨v1, v2, v3⟩ := C64_value S hw D hlab h8760 henum hb hρ g1 g2
    rcases hr with ⟨h, rfl⟩ | ⟨h, h', h'', rfl⟩ | ⟨h, h', h'', rfl⟩
    · exact v1 h
    · exact v2 h h' h''
    · exact v3 h h' h''
  · intro hnone
    by_contra h0
    obtain ⟨g1, g2⟩ := hI.only ρ hρ (fun h => h0 (by rw [h, mul_zero]))
    refine (cost_at S hw henum hb hρ).1.2 ⟨g1, g2, ?_⟩ hnone
    rcases hr with ⟨h, rfl⟩ | ⟨h, h', h'', rfl⟩ | ⟨h, h', h'', rfl⟩
    · exact ⟨0, inCase_iff.2 (.inl ⟨rfl, h⟩)⟩
    · exact ⟨1, inCase_iff.2 (.inr (.inl ⟨rfl, h, h'.imp_right .inl⟩))⟩
    · exact ⟨2, inCase_iff.2 (.inr (.inr ⟨rfl, h, .inl h'⟩))⟩

omit H F in
theorem cost_decision : Decision W E "cost" ["nodes", "techs", "costs"] X.cost := by
  refine defines_decision S henum (by simp [costTotal, single]) (by rfl) ?_ X.isCost
  refine ⟨?_, by simp [costTotal, single], by simp [costTotal, single]⟩
  intro q hq
  simp only [costTotal, single, List.mem_singleton] at hq
  subst hq
  trivial

end

/-! ### The objective -/

section
variable (S : Setting W E pw) (F : Frame W) (henum : Traverses enum) (O : ObjectiveData E)
  {cost weight : Point → V} (hc : Decision W E "cost" ["nodes", "techs", "costs"] cost)
  (hwt : Is E "timestep_weights" ["timesteps"] weight)
include S F henum

theorem penalty_den (sl : String → Option SliceDef) (hwt : Is E "timestep_weights" ["timesteps"] weight) :
    ∀ ρ, val E sl (bin (.sum (bin (.sum (bin (.comp "unmet_demand") .minus (.comp "unused_supply")) ["carriers",
      "nodes"]) .times (.comp "timestep_weights")) ["timesteps"]) .times (.comp "bigM")) ρ =
      some (sumOver E "timesteps" (fun σ => sumOver E "carriers" (sumOver E "nodes"
        (fun τ => O.unmet τ - O.unused τ)) σ * weight σ) ρ * O.penalty ρ) := by
  intro ρ
  have h1 := den_minus S.numbers (den_comp (sl := sl) O.isUnmet) (den_comp (sl := sl) O.isUnused)
  have h2 := den_sum2 (es := ["timesteps"]) (d := "carriers") (e := "nodes") (by decide) h1 (by simp) (by simp)
    (coords_ne S F henum (by simp)) (coords_ne S F henum (by simp)) (by simp)
  have h3 := den_sum (es := []) (d := "timesteps") (den_times_left S.numbers h2 (den_comp (sl := sl) hwt)) (by simp)
    (coords_ne S F henum (by simp)) (by simp)
  rw [val_bin, h3.1, val_comp, O.isPenalty.at, S.numbers.times]

theorem weighted_den (sl : String → Option SliceDef) (hc : Is E "cost" ["nodes", "techs", "costs"] cost) :
    ∀ ρ, val E sl (.sum (bin (.sum (.comp "cost") ["nodes", "techs"]) .times (.comp "objective_cost_weights"))
      ["costs"]) ρ = some (sumOver E "costs" (fun σ => sumOver E "nodes" (sumOver E "techs" cost) σ *
        O.classWeight σ) ρ) := by
  intro ρ
  have h2 := den_sum2 (es := ["costs"]) (d := "nodes") (e := "techs") (by decide) (den_comp (sl := sl) hc)
    (by simp) (by simp) (coords_ne S F henum (by simp)) (coords_ne S F henum (by simp)) (by simp)
  exact (den_sum (es := []) (d := "costs") (den_times_left S.numbers h2 (den_comp (sl := sl) O.isClassWeight))
    (by simp) (coords_ne S F henum (by simp)) (by simp)).1 ρ

/-- C81, objective: the objective is the sum over the cost classes of their weight times the cost of all technologies
at all nodes, and the penalty on demand that is not met and supply that is not used. -/
theorem C81_objective (hne : ∃ σ, Valid W σ ∧ W.matrix.at σ = true) (hc : Is E "cost" ["nodes", "techs", "costs"] cost)
    (hwt : Is E "timestep_weights" ["timesteps"] weight)
    (hb : buildExpression W E enum minCostOptimisation = .ok b) (hρ : Valid W ρ) :
    b.at ρ = some (O.value cost weight ρ) := by
  have hloc : LocalCases W (minCostOptimisation (V := V)) := by
    refine ⟨?_, ?_, by simp [minCostOptimisation]⟩
    · intro p hp
      simp only [minCostOptimisation, List.mem_singleton] at hp
      subst hp
      trivial
    · intro s hs p hp
      simp only [minCostOptimisation, List.mem_singleton] at hs
      subst hs
      simp only [List.mem_singleton] at hp
      subst hp
      trivial
  obtain ⟨_, h2⟩ := expression_present S.wf S.coords henum (by simp [minCostOptimisation]) (by rfl) hb hloc hρ
  have hp : Present W (minCostOptimisation (V := V)).foreach (minCostOptimisation (V := V)).top ρ := by
    obtain ⟨σ, h1, h2⟩ := hne
    exact ⟨by simp [minCostOptimisation], σ, h1, by simp [minCostOptimisation, SameAlong], h2,
      by simp [minCostOptimisation]⟩
  have hr : Reads W minCostOptimisation ρ (.arith (bin (.sum (bin (.sum (.comp "cost") ["nodes", "techs"]) .times (.comp
        "objective_cost_weights")) ["costs"]) .plus (.sub "unmet_demand")) : Body V)
      [("unmet_demand", bin (.sum (bin (.sum (bin (.comp "unmet_demand") .minus (.comp "unused_supply")) ["carriers",
          "nodes"]) .times (.comp "timestep_weights")) ["timesteps"]) .times (.comp "bigM"))] [] := by
    refine ⟨⟨always, by simp [minCostOptimisation], by simp⟩, ?_, picks_nil⟩
    exact picks_one (n := "unmet_demand") (by simp [findSubs, under, bin, subRefs, subRefsRest])
      (by simp [findSubs, under, bin, subRefs, subRefsRest]) (w := always) (by rfl) (List.mem_singleton.2 rfl) (by simp)
  rw [h2 _ _ _ hp hr
    (by simp [Expr.inline, Expr.inlineRest, bin, Ok, OkRest, NoOps, List.lookup])
    (by simp [Expr.inline, Expr.inlineRest, bin, Apart, ApartRest, List.lookup, minCostOptimisation]),
    readAs_val, inline_bin, val_bin]
  simp only [Expr.inline, inline_bin, lookup_hit, Option.getD_some]
  rw [weighted_den S F henum O _ hc, penalty_den S F henum O _ hwt, S.numbers.plus]
  rfl

end

/-! ### Links -/

theorem sumOver_pair {E : Expr.Env V} {d : String} {f : Point → V} {ρ : Point} {a b : Label} (hab : a ≠ b)
    (ha : a ∈ E.coords d) (hb : b ∈ E.coords d) (hn : (E.coords d).Nodup)
    (h0 : ∀ l ∈ E.coords d, l ≠ a → l ≠ b → f (set ρ d l) = 0) : sumOver E d f ρ = f (set ρ d a) + f (set ρ d b) := by
  unfold sumOver
  classical
  have key : ∀ (g : Label → V) (L : List Label), L.Nodup → a ∈ L → b ∈ L → (∀ l ∈ L, l ≠ a → l ≠ b → g l = 0) →
      (L.map g).sum = g a + g b := by
    intro g L hL hA hB hz
    have one : ∀ (c : Label) (L : List Label), L.Nodup → c ∈ L → (∀ l ∈ L, l ≠ c → g l = 0) → (L.map g).sum = g c := by
      intro c L
      induction L with
      | nil => intro _ h; simp at h
      | cons x L ih =>
        intro hL hc hz
        rw [List.nodup_cons] at hL
        rw [List.map_cons, List.sum_cons]
        by_cases hx : x = c
        · subst hx
          have : (L.map g).sum = 0 := by
            apply List.sum_eq_zero
            intro y hy
            obtain ⟨l, hl, rfl⟩ := List.mem_map.1 hy
            exact hz l (List.mem_cons_of_mem _ hl) (by rintro rfl; exact hL.1 hl)
          rw [this, add_zero]
        · rw [hz x (List.mem_cons_self ..) hx, zero_add]
          refine ih hL.2 ?_ (fun l hl => hz l (List.mem_cons_of_mem _ hl))
          rcases List.mem_cons.1 hc with h | h
          · exact absurd h.symm hx
          · exact h
    induction L with
    | nil => simp at hA
    | cons x L ih =>
      rw [List.nodup_cons] at hL
      rw [List.map_cons, List.sum_cons]
      by_cases hx : x = a
      · subst hx
        rw [one b L hL.2 ((List.mem_cons.1 hB).resolve_left (Ne.symm hab))
          (fun l hl hl' => hz l (List.mem_cons_of_mem _ hl) (by rintro rfl; exact hL.1 hl) hl')]
      · by_cases hx' : x = b
        · subst hx'
          rw [one a L hL.2 ((List.mem_cons.1 hA).resolve_left hab)
            (fun l hl hl' => hz l (List.mem_cons_of_mem _ hl) hl' (by rintro rfl; exact hL.1 hl)), add_comm]
        · rw [hz x (List.mem_cons_self ..) hx hx', zero_add]
          exact ih hL.2 ((List.mem_cons.1 hA).resolve_left (Ne.symm hx)) ((List.mem_cons.1 hB).resolve_left (Ne.symm hx'))
            (fun l hl => hz l (List.mem_cons_of_mem _ hl))
  exact key (fun l => f (set ρ d l)) _ hn ha hb h0

theorem sumOver_scale {E : Expr.Env V} {d : String} {f : Point → V} {ρ : Point} (k : V) :
    sumOver E d (fun σ => k * f σ) ρ = k * sumOver E d f ρ := by
  unfold sumOver
  induction E.coords d with
  | nil => simp
  | cons a l ih =>
    simp only [List.map_cons, List.sum_cons, ih]
    ring

section links
variable [LinearOrder V] [IsStrictOrderedRing V] (S : Setting W E pw) (F : Frame W) (C : CostModel W E)
  (H : CostShapes W) (henum : Traverses enum) {bs : Arr (Option (Cell V))}
  (hb : buildConstraint W E enum symmetricTransmission = .ok bs) {u v : Label} {p q D y L : V}
  (K : LinkData C ρ u v p q D y L)
include S F H henum hb K

omit [IsStrictOrderedRing V] in
theorem link_end {l : Label} (hl : l ∈ [u, v]) (hρ : Valid W ρ) (hs : Satisfied bs (set ρ "nodes" l)) :
    sumOver E "carriers" C.flowCap (set ρ "nodes" l) = L := by
  have hlc : l ∈ W.coords "nodes" := by
    simp only [List.mem_cons, List.not_mem_nil, or_false] at hl
    rcases hl with rfl | rfl
    · exact K.nodes.1
    · exact K.nodes.2.1
  obtain ⟨f, hf, hfl⟩ := K.isLink
  obtain ⟨_, h2⟩ := single_reads S.wf henum (by simp) hb (H.tech _ (by simp)) (set_valid hρ hlc)
    (by simp [subRefs]) (by simp [sliceRefs]) (by simp [Ok, Apart, NoOps]) (by simp [Ok, Apart])
  have h3 := h2 (K.model l hl) ((truth_isText _ _ _).2 (K.kind l hl))
  have e1 := (den_sum (sl := fun n => List.lookup n []) (es := []) (den_comp C.isFlowCap.is) (d := "carriers") (by simp)
      (coords_ne S F henum (by simp)) (by simp)).1 (set ρ "nodes" l)
  rw [plain_val, plain_val, e1, val_comp, hf.at] at h3
  rw [satisfied_eq hs h3, hfl l hl]

/-- C81, links: what the flow capacity of a link costs at its two ends together is its price, with its price per
distance times its length, times its capacity. -/
theorem C81_link (hρ : Valid W ρ) (hs : ∀ l ∈ [u, v], Satisfied bs (set ρ "nodes" l)) :
    sumOver E "nodes" (sumOver E "carriers" C.flowCapCost) ρ = (p + q * D) * L := by
  have hcost : ∀ l ∈ [u, v], sumOver E "carriers" C.flowCapCost (set ρ "nodes" l) = (p + q * D) * (1 / 2) * L := by
    intro l hl
    rw [← link_end S F C H henum hb K hl hρ (hs l hl), ← sumOver_scale]
    apply sumOver_congr
    intro c hc
    unfold CostModel.flowCapCost
    have ht : Text W "base_tech" "transmission" (set (set ρ "nodes" l) "carriers" c) := by
      have := K.kind l hl
      unfold Text at this ⊢
      rw [valueOf_same (sets := ["nodes", "techs"]) (ρ := set ρ "nodes" l) (sameAlong_set (by decide) c)
        (H.tech _ (by simp))]
      exact this
    rw [if_pos ht, K.isPrice l hl, K.isPerDistance l hl, K.isDistance l hl]
  rw [sumOver_pair K.differ (by rw [S.coords]; exact K.nodes.1) (by rw [S.coords]; exact K.nodes.2.1)
    (by rw [S.coords]; exact K.nodes.2.2), hcost u (by simp), hcost v (by simp)]
  · ring
  · intro l hl h1 h2
    apply sumOver_zero
    intro c hc
    unfold CostModel.flowCapCost
    rw [K.elsewhere l h1 h2, mul_zero]

omit [IsStrictOrderedRing V] in
/-- The yearly price of the capacity of a link is paid at both of its ends, in contrast to the price of its capacity. -/
theorem C81_link_yearly (hρ : Valid W ρ) (hs : ∀ l ∈ [u, v], Satisfied bs (set ρ "nodes" l)) :
    sumOver E "nodes" (sumOver E "carriers" (fun σ => C.perYear σ * C.flowCap σ)) ρ = 2 * (y * L) := by
  have hcost : ∀ l ∈ [u, v], sumOver E "carriers" (fun σ => C.perYear σ * C.flowCap σ) (set ρ "nodes" l) = y * L := by
    intro l hl
    rw [← link_end S F C H henum hb K hl hρ (hs l hl), ← sumOver_scale]
    apply sumOver_congr
    intro c hc
    rw [K.isPerYear l hl]
  rw [sumOver_pair K.differ (by rw [S.coords]; exact K.nodes.1) (by rw [S.coords]; exact K.nodes.2.1)
    (by rw [S.coords]; exact K.nodes.2.2), hcost u (by simp), hcost v (by simp)]
  · ring
  · intro l hl h1 h2
    apply sumOver_zero
    intro c hc
    rw [K.elsewhere l h1 h2, mul_zero]

end links

/-! ### SPORES -/

section spores
variable [LinearOrder V] (S : Setting W E pw) (F : Frame W) (henum : Traverses enum) (O : ObjectiveData E)
  {cost weight baseline slack : Point → V} {bs : Arr (Option (Cell V))}

/-- C82: the constraint of SPORES mode holds exactly if the objective of the cost-optimal plan, evaluated for the
solution, is not more than the baseline cost and the slack; also if no technology has any cost. -/
theorem C82_slack (S : Setting W E pw) (F : Frame W) (henum : Traverses enum)
    (hne : ∃ σ, Valid W σ ∧ W.matrix.at σ = true) (hc : Decision W E "cost" ["nodes", "techs", "costs"] cost)
    (hwt : Is E "timestep_weights" ["timesteps"] weight) (h1 : Is E "spores_baseline_cost" [] baseline)
    (h2 : Is E "spores_slack" [] slack) (hb : buildConstraint W E enum totalSystemCostMax = .ok bs)
    (hρ : Valid W ρ) :
    bs.at ρ ≠ none ∧ (Satisfied bs ρ ↔ O.value cost weight ρ ≤ baseline ρ * (1 + slack ρ)) := by
  have hany : Local W [] (.atom (.anyResult "cost" ["nodes", "techs", "costs"])) :=
    fun a ha d hd => .inr (hc.within a ha d hd)
  have hloc : LocalCases W (totalSystemCostMax (V := V)) := by
    refine ⟨?_, ?_, by simp [totalSystemCostMax]⟩
    · intro p hp
      simp only [totalSystemCostMax, List.mem_cons, List.not_mem_nil, or_false] at hp
      rcases hp with rfl | rfl
      · exact hany
      · exact hany
    · intro s hs p hp
      simp only [totalSystemCostMax, List.mem_singleton] at hs
      subst hs
      simp only [List.mem_singleton] at hp
      subst hp
      trivial
  obtain ⟨g1, g2⟩ := constraint_present S.wf henum (by simp [totalSystemCostMax]) (by rfl) hb hloc hρ
  have hp : Present W (totalSystemCostMax (V := V)).foreach (totalSystemCostMax (V := V)).top ρ := by
    obtain ⟨σ, h1, h2⟩ := hne
    exact ⟨by simp [totalSystemCostMax], σ, h1, by simp [totalSystemCostMax, SameAlong], h2,
      by simp [totalSystemCostMax]⟩
  have hright : ∀ sl : String → Option SliceDef, val E sl (bin (.comp "spores_baseline_cost") .times
      (bin (.num 1) .plus (.comp "spores_slack"))) ρ = some (baseline ρ * (1 + slack ρ)) := by
    intro sl
    rw [val_bin, val_bin, val_comp, val_comp, val_num, h1.at, h2.at, S.numbers.plus, S.numbers.times]
  have hat : bs.at ρ = some ⟨some (O.value cost weight ρ), "<=", some (baseline ρ * (1 + slack ρ))⟩ := by
    by_cases hx : Truth W ρ (.atom (.anyResult "cost" ["nodes", "techs", "costs"]))
    · have hr : Reads W totalSystemCostMax ρ (.cmp (bin (.sum (bin (.sum (.comp "cost") ["nodes", "techs"]) .times
          (.comp "objective_cost_weights")) ["costs"]) .plus (.sub "unmet_demand")) "<=" (bin (.comp
          "spores_baseline_cost") .times (bin (.num 1) .plus (.comp "spores_slack"))) : Body V)
          [("unmet_demand", bin (.sum (bin (.sum (bin (.comp "unmet_demand") .minus (.comp "unused_supply"))
            ["carriers", "nodes"]) .times (.comp "timestep_weights")) ["timesteps"]) .times (.comp "bigM"))] [] := by
        refine ⟨⟨_, by simp only [totalSystemCostMax]; exact List.mem_cons_self .., hx⟩, ?_, picks_nil⟩
        exact picks_one (n := "unmet_demand") (by simp [findSubs, bin, subRefs, subRefsRest])
          (by simp [findSubs, bin, subRefs, subRefsRest]) (w := always) (by rfl) (List.mem_singleton.2 rfl)
          (by simp)
      rw [g2 _ _ _ _ _ hp hr
        (by simp [Expr.inline, Expr.inlineRest, bin, Ok, OkRest, NoOps, List.lookup])
        (by simp [Expr.inline, Expr.inlineRest, bin, Apart, ApartRest, List.lookup, totalSystemCostMax])
        (by simp [Expr.inline, Expr.inlineRest, bin, Ok, OkRest, NoOps, List.lookup])
        (by simp [Expr.inline, Expr.inlineRest, bin, Apart, ApartRest, List.lookup, totalSystemCostMax]),
        readAs_val, readAs_val, inline_bin, val_bin]
      simp only [Expr.inline, inline_bin, lookup_hit, Option.getD_some]
      rw [weighted_den S F henum O _ hc.is, penalty_den S F henum O _ hwt, S.numbers.plus, hright]
      rfl
    · have hr : Reads W totalSystemCostMax ρ (.cmp (.sub "unmet_demand") "<=" (bin (.comp
          "spores_baseline_cost") .times (bin (.num 1) .plus (.comp "spores_slack"))) : Body V)
          [("unmet_demand", bin (.sum (bin (.sum (bin (.comp "unmet_demand") .minus (.comp "unused_supply"))
            ["carriers", "nodes"]) .times (.comp "timestep_weights")) ["timesteps"]) .times (.comp "bigM"))] [] := by
        refine ⟨⟨_, by simp only [totalSystemCostMax]; exact List.mem_cons_of_mem _ (List.mem_cons_self ..),
          (truth_no _ _).2 hx⟩, ?_, picks_nil⟩
        exact picks_one (n := "unmet_demand") (by simp [findSubs, bin, subRefs, subRefsRest])
          (by simp [findSubs, bin, subRefs, subRefsRest]) (w := always) (by rfl) (List.mem_singleton.2 rfl)
          (by simp)
      rw [g2 _ _ _ _ _ hp hr
        (by simp [Expr.inline, Expr.inlineRest, bin, Ok, OkRest, NoOps, List.lookup])
        (by simp [Expr.inline, Expr.inlineRest, bin, Apart, ApartRest, List.lookup, totalSystemCostMax])
        (by simp [Expr.inline, Expr.inlineRest, bin, Ok, OkRest, NoOps, List.lookup])
        (by simp [Expr.inline, Expr.inlineRest, bin, Apart, ApartRest, List.lookup, totalSystemCostMax]),
        readAs_val, readAs_val]
      simp only [Expr.inline, inline_bin, lookup_hit, Option.getD_some]
      rw [penalty_den S F henum O _ hwt, hright]
      have hz : sumOver E "costs" (fun σ => sumOver E "nodes" (sumOver E "techs" cost) σ * O.classWeight σ) ρ = 0 := by
        apply sumOver_zero
        intro k hk
        have hk' := set_valid (W := W) hρ (d := "costs") (l := k) (by rw [← S.coords]; exact hk)
        rw [sumOver_zero, zero_mul]
        intro n hn
        have hn' := set_valid (W := W) hk' (d := "nodes") (l := n) (by rw [← S.coords]; exact hn)
        apply sumOver_zero
        intro t ht
        have ht' := set_valid (W := W) hn' (d := "techs") (l := t) (by rw [← S.coords]; exact ht)
        by_contra h0
        obtain ⟨_, a, ha, hv⟩ := hc.only _ ht' h0
        refine hx ⟨a, ha, fun d => if d ∈ a.dims then set (set (set ρ "costs" k) "nodes" n) "techs" t d else ρ d,
          ⟨?_, ?_⟩, ?_⟩
        · intro d hd
          refine if_neg (fun hm => hd (List.mem_filter.2 ⟨hm, ?_⟩))
          simpa using hc.within a ha d hm
        · intro d hd
          simp only [if_pos (List.mem_filter.1 hd).1]
          exact ht' d
        · rw [← hv]
          exact at_congr a (fun d hd => if_pos hd)
      unfold ObjectiveData.value
      rw [hz, zero_add]
  refine ⟨by rw [hat]; simp, ?_⟩
  constructor
  · intro h
    exact satisfied_le h hat
  · intro h x y
    rw [hat]
    refine ⟨?_, ?_, ?_⟩
    · intro hx; simp at hx
    · intro hx
      simp only [Option.some.injEq, Cell.mk.injEq, true_and] at hx
      obtain ⟨rfl, rfl⟩ := hx
      exact h
    · intro hx; simp at hx

end spores

end

end BaseMath
end Calliope
