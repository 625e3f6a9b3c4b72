import Mathlib.Tactic.Ring
import Verif.Proofs.Present
import Verif.Props.BaseMath
import Verif.Props.BaseBalance
import Verif.Model.BaseCosts
import Verif.Spec.Costs

/-!
What the components of the costs stand for at every item.
-/

namespace Calliope
namespace BaseMath

open Grid Infix Expr Expand Build Where

variable {V : Type}

/-! ### Items -/

theorem inModel_matrix {W : Where.Env} {sets : List String} (hM : ∀ d ∈ W.matrix.dims, d ∈ sets) {ρ : Point}
    (h : InModel W sets ρ) : W.matrix.at ρ = true := by
  obtain ⟨_, σ, _, h2, h3⟩ := h
  rw [← h3]
  exact at_congr _ (fun d hd => (h2 d (hM d hd)).symm)

/-- An item of the model with the labels of `ρ` along further dimensions that the definition matrix does not have. -/
theorem inModel_more {W : Where.Env} {sets sets' : List String} {ρ : Point} (hρ : Valid W ρ) (h : InModel W sets ρ)
    (hd : ∀ d ∈ sets', d ∈ W.dims) (hM : ∀ d ∈ W.matrix.dims, d ∈ sets' → d ∈ sets) : InModel W sets' ρ := by
  obtain ⟨_, σ, h1, h2, h3⟩ := h
  refine ⟨fun d hm => .inr (hd d hm), fun d => if d ∈ W.matrix.dims then σ d else ρ d, ?_, ?_, ?_⟩
  · intro d
    by_cases hm : d ∈ W.matrix.dims
    · simp only [if_pos hm]; exact h1 d
    · simp only [if_neg hm]; exact hρ d
  · intro d hm
    by_cases hm' : d ∈ W.matrix.dims
    · simp only [if_pos hm']; exact h2 d (hM d hm' hm)
    · simp only [if_neg hm']
  · rw [← h3]
    apply at_congr
    intro d hm
    simp only [if_pos hm]

theorem inModel_less {W : Where.Env} {sets sets' : List String} {ρ : Point} (h : InModel W sets ρ)
    (hd : ∀ d ∈ sets', d ∈ sets) : InModel W sets' ρ := by
  obtain ⟨h0, σ, h1, h2, h3⟩ := h
  exact ⟨fun d hm => h0 d (hd d hm), σ, h1, fun d hm => h2 d (hd d hm), h3⟩

theorem inModel_same {W : Where.Env} {sets : List String} {ρ τ : Point} (h : InModel W sets τ)
    (hs : SameAlong sets ρ τ) : InModel W sets ρ := by
  obtain ⟨h0, σ, h1, h2, h3⟩ := h
  exact ⟨h0, σ, h1, fun d hm => (h2 d hm).trans (hs d hm), h3⟩

theorem present_in {W : Where.Env} {sets : List String} {top : Cond} {ρ : Point} (h : Present W sets top ρ) :
    InModel W sets ρ := by
  obtain ⟨h0, σ, h1, h2, h3, _⟩ := h
  exact ⟨h0, σ, h1, h2, h3⟩

theorem sameAlong_set {sets : List String} {ρ : Point} {d : String} (hd : d ∉ sets) (l : Label) :
    SameAlong sets ρ (set ρ d l) := by
  intro x hx
  unfold Expr.set
  rw [if_neg]
  rintro rfl
  exact hd hx

/-- A component that depends on the existence of another one, with more dimensions. -/
theorem present_of {W : Where.Env} {sets ds : List String} {top : Cond} {n : String} {ρ τ : Point}
    (hsub : ∀ d ∈ sets, d ∈ ds) (hin : InModel W ds τ) (hs : SameAlong sets ρ τ) (hex : Exists W n τ)
    (hw : ResultWithin W ds n) (htop : ∀ σ, Exists W n σ → SameAlong ds τ σ → Truth W σ top) :
    Present W sets top ρ := by
  obtain ⟨h0, σ, h1, h2, h3⟩ := hin
  refine ⟨fun d hd => h0 d (hsub d hd), σ, h1, fun d hd => (h2 d (hsub d hd)).trans (hs d hd), h3, htop σ ?_ h2⟩
  obtain ⟨a, ha, hv⟩ := hex
  exact ⟨a, ha, by rw [← hv]; exact at_congr a (fun d hd => h2 d (hw a ha d hd))⟩

theorem givenAt_same {W : Where.Env} {sets : List String} {n : String} (hw : ∀ d ∈ (W.input n).arr.dims, d ∈ sets)
    {ρ σ : Point} (h : SameAlong sets ρ σ) : GivenAt W n σ ↔ GivenAt W n ρ := by
  unfold GivenAt
  rw [at_congr (W.input n).arr (ρ := ρ) (fun d hd => h d (hw d hd))]

theorem truth_given' {W : Where.Env} (n : String) (ρ : Point) : Truth W ρ (given n) ↔ GivenAt W n ρ := truth_given n ρ
theorem truth_built' {W : Where.Env} (n : String) (ρ : Point) : Truth W ρ (built n) ↔ Exists W n ρ := truth_built n ρ

section
variable [Field V] {W : Where.Env} {E : Expr.Env V} {pw : V → V → V} {enum : List String → List String}
  {b : Arr (Option V)} {f : Point → V} {ρ : Point} {n : String} {ds : List String}

theorem Known.eq (K : Known W E n ds b f) (hρ : Valid W ρ) {v : V} (h1 : b.at ρ ≠ none → b.at ρ = some v)
    (h2 : b.at ρ = none → v = 0) : f ρ = v := by
  rw [K.value ρ hρ]
  by_cases h : b.at ρ = none
  · rw [h, h2 h]; rfl
  · rw [h1 h]; rfl

theorem Known.absent (K : Known W E n ds b f) (hρ : Valid W ρ) (h : f ρ ≠ 0) : b.at ρ ≠ none := by
  intro hb
  rw [K.value ρ hρ, hb] at h
  exact h rfl

theorem Price.given {W : Where.Env} (P : Price W E n f) (hρ : Valid W ρ) (h : f ρ ≠ 0) : GivenAt W n ρ := by
  by_contra hg
  exact h (P.missing ρ hρ hg)

/-- An expression of one equation without references. -/
theorem single_expr (hE : WellFormed E) (hco : E.coords = W.coords) (henum : Traverses enum) {name : String}
    {sets : List String} {top : Cond} {t : Ex V} (hn : sets.Nodup)
    (hb : buildExpression W E enum (single name sets top (.arith t)) = .ok b) (hρ : Valid W ρ)
    (hu : findSubs (.arith t) = [] ∧ bodySlices (.arith t) = []) (ht : Ok t ∧ Apart sets t) :
    (b.at ρ ≠ none ↔ Present W sets top ρ) ∧ (Present W sets top ρ → b.at ρ = plain E t ρ) := by
  have hloc : LocalCases W (single name sets top (.arith t)) := by
    refine ⟨?_, by simp [single], by simp [single]⟩
    intro p hp
    simp only [single, List.mem_singleton] at hp
    subst hp
    trivial
  have hres : resolved (single name sets top (.arith t)).defn = true := by
    simp [resolved, single, hu]
  have hi : inline (fun n => List.lookup n ([] : List (String × Ex V))) t = t := inline_none (fun _ => rfl) t
  obtain ⟨h1, h2⟩ := expression_present hE hco henum (by simpa [single] using hn) hres hb hloc hρ
  have hr : Reads W (single name sets top (.arith t)) ρ (.arith t) [] [] :=
    reads_nil (w := always) (by simp [single]) (by simp) hu.1 hu.2
  refine ⟨?_, ?_⟩
  · rw [h1]
    exact ⟨fun h => h.1, fun h => ⟨h, _, _, _, hr⟩⟩
  · intro hp
    rw [h2 t [] [] hp hr (by rw [hi]; exact ht.1) (by rw [hi]; exact ht.2), readAs_nil]

/-! ### Costs -/

variable (S : Setting W E pw) (F : Frame W) (C : CostModel W E) (H : CostShapes W) (henum : Traverses enum)
include S F henum H

/-- Investment in flow capacity. -/
theorem flowCapCost_eq (hb : buildExpression W E enum costInvestmentFlowCap = .ok b)
    (K : Known W E "cost_investment_flow_cap" ["nodes", "techs", "carriers", "costs"] b f) (hρ : Valid W ρ) :
    f ρ = C.flowCapCost ρ := by
  have htech : ∀ d ∈ (W.input "base_tech").arr.dims, d ∈ ["nodes", "techs", "carriers", "costs"] := fun d hd =>
    (by decide : ∀ d ∈ ["nodes", "techs"], d ∈ ["nodes", "techs", "carriers", "costs"]) d (H.tech _ (by simp) d hd)
  have hloc : LocalDef W (costInvestmentFlowCap (V := V)) := by
    apply localDef_leaves
    intro l hl
    simp only [allLeaves, costInvestmentFlowCap, leaves, leavesRest, both, either, built, given, no, isText, always,
      List.flatMap_cons, List.flatMap_nil, List.append_nil, List.cons_append, List.nil_append, List.mem_cons,
      List.not_mem_nil, or_false] at hl
    rcases hl with rfl | rfl | rfl | rfl | rfl | rfl
    · exact fun a ha d hd => (by decide : ∀ d ∈ ["nodes", "techs", "carriers"],
        d ∈ ["nodes", "techs", "carriers", "costs"]) d (C.isFlowCap.within a ha d hd)
    · exact H.flow _ (by simp)
    · exact H.flow _ (by simp)
    · trivial
    · exact htech
    · exact htech
  obtain ⟨h1, h2⟩ := expression_reads S.wf S.coords henum (by simp [costInvestmentFlowCap]) (by rfl) hb hloc hρ
  have htop : Truth W ρ (costInvestmentFlowCap (V := V)).top ↔
      Exists W "flow_cap" ρ ∧ (GivenAt W "cost_flow_cap" ρ ∨ GivenAt W "cost_flow_cap_per_distance" ρ) := by
    simp only [costInvestmentFlowCap, truth_both, truth_either, truth_built', truth_given']
  have hp : ∀ {w : Cond} {t : Ex V}, (w, t) ∈ [(isText "base_tech" "transmission", bin (bin (.comp "cost_flow_cap")
      .plus (bin (.comp "cost_flow_cap_per_distance") .times (.comp "distance"))) .times (.num (1 / 2))),
      (no (isText "base_tech" "transmission"), Ex.comp "cost_flow_cap")] → Truth W ρ w →
      Reads W costInvestmentFlowCap ρ (.arith (bin (.sub "cost_sum") .times (.comp "flow_cap"))) [("cost_sum", t)] [] := by
    intro w t hm hw
    refine ⟨⟨always, by simp [costInvestmentFlowCap], by simp⟩, ?_, ?_⟩
    · exact picks_one (n := "cost_sum") (by simp [findSubs, under, bin, subRefs, subRefsRest])
        (by simp [findSubs, under, bin, subRefs, subRefsRest])
        (l := [(isText "base_tech" "transmission", bin (bin (.comp "cost_flow_cap") .plus
          (bin (.comp "cost_flow_cap_per_distance") .times (.comp "distance"))) .times (.num (1 / 2))),
          (no (isText "base_tech" "transmission"), Ex.comp "cost_flow_cap")])
        (by rfl) hm hw
    · have : bodySlices (.arith (bin (.sub "cost_sum") .times (.comp "flow_cap")) : Body V) ++
        List.flatMap (fun p => sliceRefs p.2) [("cost_sum", t)] = [] := by
        simp only [List.mem_cons, Prod.mk.injEq, List.not_mem_nil, or_false] at hm
        rcases hm with ⟨_, rfl⟩ | ⟨_, rfl⟩ <;> rfl
      rw [this]
      exact picks_nil
  have hv : InModel W ["nodes", "techs", "carriers", "costs"] ρ → Exists W "flow_cap" ρ ∧
      (GivenAt W "cost_flow_cap" ρ ∨ GivenAt W "cost_flow_cap_per_distance" ρ) → b.at ρ = some (C.flowCapCost ρ) := by
    intro g1 g2
    unfold CostModel.flowCapCost
    by_cases ht : Text W "base_tech" "transmission" ρ
    · rw [if_pos ht, h2 _ _ _ g1 (htop.2 g2) (hp (List.mem_cons_self ..) ((truth_isText _ _ _).2 ht))
        (by simp [Expr.inline, Expr.inlineRest, bin, Ok, OkRest, List.lookup])
        (by simp [Expr.inline, Expr.inlineRest, bin, Apart, ApartRest, List.lookup]), readAs_val, inline_bin, val_bin]
      simp only [Expr.inline, lookup_hit, Option.getD_some, val_bin, val_comp, val_num, C.isPerFlowCap.is.at,
        C.isPerDistance.is.at, C.isDistance.at, C.isFlowCap.is.at, S.numbers.plus, S.numbers.times]
    · rw [if_neg ht, h2 _ _ _ g1 (htop.2 g2) (hp (List.mem_cons_of_mem _ (List.mem_cons_self ..))
        (by simpa [truth_isText] using ht))
        (by simp [Expr.inline, Expr.inlineRest, bin, Ok, OkRest, List.lookup])
        (by simp [Expr.inline, Expr.inlineRest, bin, Apart, ApartRest, List.lookup]), readAs_val, inline_bin, val_bin]
      simp only [Expr.inline, lookup_hit, Option.getD_some, val_comp, C.isPerFlowCap.is.at, C.isFlowCap.is.at,
        S.numbers.times]
  refine K.eq hρ ?_ ?_
  · intro hne
    have := h1.1 hne
    exact hv this.1 (htop.1 this.2.1)
  · intro hnone
    by_contra h0
    apply absurd (hv ?_ ?_) (by rw [hnone]; simp)
    · have hc : C.flowCap ρ ≠ 0 := fun h => h0 (by unfold CostModel.flowCapCost; rw [h, mul_zero])
      exact inModel_more hρ (C.isFlowCap.only ρ hρ hc).1
        (fun d hd => F.dims d ((by decide : ∀ d ∈ ["nodes", "techs", "carriers", "costs"],
          d ∈ ["nodes", "techs", "carriers", "costs", "timesteps"]) d hd))
        (fun d hd _ => F.matrix d hd)
    · have hc : C.flowCap ρ ≠ 0 := fun h => h0 (by unfold CostModel.flowCapCost; rw [h, mul_zero])
      refine ⟨(C.isFlowCap.only ρ hρ hc).2, ?_⟩
      by_contra hg
      push Not at hg
      apply h0
      unfold CostModel.flowCapCost
      rw [C.isPerFlowCap.missing ρ hρ hg.1, C.isPerDistance.missing ρ hρ hg.2]
      simp

omit H in
/-- Investment in storage, source and area. -/
theorem capCost_eq {name price var : String} {p x : Point → V}
    (hb : buildExpression W E enum (single name ["nodes", "techs", "costs"] (both (given price) (built var))
      (.arith (bin (.comp price) .times (.comp var)))) = .ok b)
    (K : Known W E name ["nodes", "techs", "costs"] b f) (P : Price W E price p)
    (X : Decision W E var ["nodes", "techs"] x)
    (hw : ∀ d ∈ (W.input price).arr.dims, d ∈ ["nodes", "techs", "costs"]) (hρ : Valid W ρ) :
    f ρ = p ρ * x ρ := by
  have hloc : Local W ["nodes", "techs", "costs"] (both (given price) (built var)) :=
    ⟨hw, fun a ha d hd => (by decide : ∀ d ∈ ["nodes", "techs"], d ∈ ["nodes", "techs", "costs"]) d
      (X.within a ha d hd)⟩
  obtain ⟨h1, h2⟩ := single_expr S.wf S.coords henum (by simp) hb hρ
    (by simp [findSubs, bodySlices, under, bin, subRefs, subRefsRest, sliceRefs, sliceRefsRest])
    (by simp [bin, Ok, OkRest, Apart, ApartRest])
  have hv : plain E (bin (.comp price) .times (.comp var)) ρ = some (p ρ * x ρ) := by
    rw [plain_val, val_bin, val_comp, val_comp, P.is.at, X.is.at, S.numbers.times]
  refine K.eq hρ (fun h => (h2 (h1.1 h)).trans hv) ?_
  intro hnone
  by_contra h0
  apply h1.2 _ hnone
  rw [present_local hloc, truth_both, truth_given', truth_built']
  have hx := X.only ρ hρ (fun h => h0 (by rw [h, mul_zero]))
  refine ⟨?_, P.given hρ (fun h => h0 (by rw [h, zero_mul])), hx.2⟩
  refine inModel_more hρ hx.1 (fun d hd => F.dims d ((by decide : ∀ d ∈ ["nodes", "techs", "costs"],
    d ∈ ["nodes", "techs", "carriers", "costs", "timesteps"]) d hd)) ?_
  intro d hd hd'
  have := F.matrix d hd
  simp only [List.mem_cons, List.not_mem_nil, or_false] at hd' this ⊢
  rcases this with rfl | rfl | rfl
  · exact .inl rfl
  · exact .inr rfl
  · simp at hd'

omit H in
theorem coords_ne {d : String} (hd : d ∈ ["nodes", "techs", "carriers", "costs", "timesteps"]) : E.coords d ≠ [] := by
  rw [S.coords]
  exact F.labels d hd

omit S F H henum in
theorem known_decision (K : Known W E n ds b f) (hI : ∀ ρ, Valid W ρ → b.at ρ ≠ none → InModel W ds ρ) :
    Decision W E n ds f :=
  ⟨K.is, fun ρ hρ h => ⟨hI ρ hρ (K.absent hρ h), (K.built ρ hρ).2 (K.absent hρ h)⟩, K.within⟩

omit F H in
theorem defines_decision {c : Component V} (hn : c.foreach.Nodup) (hres : resolved c.defn = true)
    (hloc : LocalCases W c) (h : Defines W E enum c f) : Decision W E c.defn.name c.foreach f := by
  obtain ⟨b, hb, K⟩ := h
  refine known_decision K (fun ρ hρ hne => ?_)
  exact present_in ((expression_present S.wf S.coords henum hn hres hb hloc hρ).1.1 hne).1

omit H in
/-- Investment, in terms of its parts. -/
theorem invest_parts {f1 f2 f3 f4 : Point → V} (D : Defines W E enum costInvestment f)
    (K1 : Decision W E "cost_investment_flow_cap" ["nodes", "techs", "carriers", "costs"] f1)
    (K2 : Decision W E "cost_investment_storage_cap" ["nodes", "techs", "costs"] f2)
    (K3 : Decision W E "cost_investment_source_cap" ["nodes", "techs", "costs"] f3)
    (K4 : Decision W E "cost_investment_area_use" ["nodes", "techs", "costs"] f4) (hρ : Valid W ρ) :
    f ρ = sumOver E "carriers" f1 ρ + f2 ρ + f3 ρ + f4 ρ := by
  obtain ⟨b, hb, K⟩ := D
  obtain ⟨h1, h2⟩ := single_expr S.wf S.coords henum (by simp) hb hρ
    (by simp [findSubs, bodySlices, under, subRefs, subRefsRest, sliceRefs, sliceRefsRest])
    (by simp [Ok, OkRest, Apart, ApartRest, NoOps])
  have hv : plain E (.chain (.sum (.comp "cost_investment_flow_cap") ["carriers"]) (.more .plus (.comp
      "cost_investment_storage_cap") (.more .plus (.comp "cost_investment_source_cap") (.one .plus (.comp
      "cost_investment_area_use"))))) ρ = some (sumOver E "carriers" f1 ρ + f2 ρ + f3 ρ + f4 ρ) := by
    have e1 := (den_sum (sl := fun n => List.lookup n []) (es := []) (den_comp K1.is) (d := "carriers") (by simp)
      (coords_ne S F henum (by simp)) (by simp)).1 ρ
    have e2 := mean_comp (slices := fun n => List.lookup n []) K2.is ρ
    have e3 := mean_comp (slices := fun n => List.lookup n []) K3.is ρ
    have e4 := mean_comp (slices := fun n => List.lookup n []) K4.is ρ
    unfold val at e1
    unfold plain
    rw [mean, meanRest, meanRest, meanRest]
    simp only [mask_true, e1, e2, e3, e4, S.numbers.plus]
  refine K.eq hρ (fun h => (h2 (h1.1 h)).trans hv) ?_
  intro hnone
  have ht : ∀ σ, Truth W σ (costInvestment (V := V)).top ↔ (((Exists W "cost_investment_flow_cap" σ ∨
      Exists W "cost_investment_storage_cap" σ) ∨ Exists W "cost_investment_source_cap" σ) ∨
      Exists W "cost_investment_area_use" σ) := by
    intro σ
    simp only [costInvestment, single, Truth, RestTruth, connect, truth_built']
  have hno : ∀ {n : String} {ds : List String} {g : Point → V}, Decision W E n ds g →
      (∀ d ∈ ["nodes", "techs", "costs"], d ∈ ds) → (∀ σ, Exists W n σ → Truth W σ (costInvestment (V := V)).top) →
      ∀ τ, Valid W τ → SameAlong ["nodes", "techs", "costs"] ρ τ → g τ = 0 := by
    intro n ds g K' hsub htop τ hτ hs
    by_contra h0
    obtain ⟨g1, g2⟩ := K'.only τ hτ h0
    exact h1.2 (present_of hsub g1 hs g2 K'.within (fun σ hσ _ => htop σ hσ)) hnone
  have hrefl : SameAlong ["nodes", "techs", "costs"] ρ ρ := fun _ _ => rfl
  rw [hno K2 (by decide) (fun σ h => (ht σ).2 (.inl (.inl (.inr h)))) ρ hρ hrefl,
    hno K3 (by decide) (fun σ h => (ht σ).2 (.inl (.inr h))) ρ hρ hrefl,
    hno K4 (by decide) (fun σ h => (ht σ).2 (.inr h)) ρ hρ hrefl, sumOver_zero]
  · simp
  · intro l hl
    exact hno K1 (by decide) (fun σ h => (ht σ).2 (.inl (.inl (.inl h)))) _
      (set_valid hρ (by rw [← S.coords]; exact hl)) (sameAlong_set (by decide) l)

omit H in
/-- All costs, in terms of their parts. -/
theorem total_parts {f1 f2 f3 : Point → V} (D : Defines W E enum costTotal f)
    (K1 : Decision W E "cost_investment_annualised" ["nodes", "techs", "costs"] f1)
    (K2 : Decision W E "cost_operation_variable" ["nodes", "techs", "costs", "timesteps"] f2)
    (K3 : Decision W E "cost_operation_fixed" ["nodes", "techs", "costs"] f3) (hρ : Valid W ρ) :
    f ρ = f1 ρ + sumOver E "timesteps" f2 ρ + f3 ρ := by
  obtain ⟨b, hb, K⟩ := D
  obtain ⟨h1, h2⟩ := single_expr S.wf S.coords henum (by simp) hb hρ
    (by simp [findSubs, bodySlices, under, subRefs, subRefsRest, sliceRefs, sliceRefsRest, bin3])
    (by simp [Ok, OkRest, Apart, ApartRest, NoOps, bin3])
  have hv : plain E (bin3 (.comp "cost_investment_annualised") .plus (.sum (.comp "cost_operation_variable")
      ["timesteps"]) .plus (.comp "cost_operation_fixed")) ρ = some (f1 ρ + sumOver E "timesteps" f2 ρ + f3 ρ) := by
    have e1 := (den_sum (sl := fun n => List.lookup n []) (es := []) (den_comp K2.is) (d := "timesteps") (by simp)
      (coords_ne S F henum (by simp)) (by simp)).1 ρ
    rw [plain_val, val_bin3, val_comp, val_comp, e1, K1.is.at, K3.is.at, S.numbers.plus, S.numbers.plus]
  refine K.eq hρ (fun h => (h2 (h1.1 h)).trans hv) ?_
  intro hnone
  have ht : ∀ σ, Truth W σ (costTotal (V := V)).top ↔ ((Exists W "cost_investment_annualised" σ ∨
      Exists W "cost_operation_variable" σ) ∨ Exists W "cost_operation_fixed" σ) := by
    intro σ
    simp only [costTotal, single, Truth, RestTruth, connect, truth_built']
  have hno : ∀ {n : String} {ds : List String} {g : Point → V}, Decision W E n ds g →
      (∀ d ∈ ["nodes", "techs", "costs"], d ∈ ds) → (∀ σ, Exists W n σ → Truth W σ (costTotal (V := V)).top) →
      ∀ τ, Valid W τ → SameAlong ["nodes", "techs", "costs"] ρ τ → g τ = 0 := by
    intro n ds g K' hsub htop τ hτ hs
    by_contra h0
    obtain ⟨g1, g2⟩ := K'.only τ hτ h0
    exact h1.2 (present_of hsub g1 hs g2 K'.within (fun σ hσ _ => htop σ hσ)) hnone
  have hrefl : SameAlong ["nodes", "techs", "costs"] ρ ρ := fun _ _ => rfl
  rw [hno K1 (by decide) (fun σ h => (ht σ).2 (.inl (.inl h))) ρ hρ hrefl,
    hno K3 (by decide) (fun σ h => (ht σ).2 (.inr h)) ρ hρ hrefl, sumOver_zero]
  · simp
  · intro l hl
    exact hno K2 (by decide) (fun σ h => (ht σ).2 (.inl (.inr h))) _
      (set_valid hρ (by rw [← S.coords]; exact hl)) (sameAlong_set (by decide) l)

/-- Costs of a time step. -/
theorem variableCost_eq (D : Defines W E enum costOperationVariable f) (hρ : Valid W ρ) :
    f ρ = C.variableCost ρ := by
  obtain ⟨b, hb, K⟩ := D
  have htech : ∀ d ∈ (W.input "base_tech").arr.dims, d ∈ ["nodes", "techs", "costs", "timesteps"] := fun d hd =>
    (by decide : ∀ d ∈ ["nodes", "techs"], d ∈ ["nodes", "techs", "costs", "timesteps"]) d (H.tech _ (by simp) d hd)
  have hloc : LocalCases W (costOperationVariable (V := V)) := by
    refine ⟨?_, ?_, by simp [costOperationVariable]⟩
    · intro p hp
      simp only [costOperationVariable, List.mem_singleton] at hp
      subst hp
      trivial
    · intro s hs p hp
      simp only [costOperationVariable, List.mem_cons, List.not_mem_nil, or_false] at hs
      rcases hs with rfl | rfl | rfl <;> simp only [List.mem_cons, List.not_mem_nil, or_false] at hp
      · subst hp; trivial
      · rcases hp with rfl | rfl
        · exact htech
        · exact htech
      · subst hp; trivial
  obtain ⟨h1, h2⟩ := expression_present S.wf S.coords henum (by simp [costOperationVariable]) (by rfl) hb hloc hρ
  have htop : ∀ σ, Truth W σ (costOperationVariable (V := V)).top ↔ (((GivenAt W "cost_export" σ ∨
      GivenAt W "cost_flow_in" σ) ∨ GivenAt W "cost_flow_out" σ) ∨ GivenAt W "cost_source_use" σ) := by
    intro σ
    simp only [costOperationVariable, Truth, RestTruth, connect, truth_given']
  have hr : ∀ {w : Cond} {t : Ex V}, (w, t) ∈ [(isText "base_tech" "supply",
      bin (.comp "cost_source_use") .times (.comp "source_use")), (no (isText "base_tech" "supply"),
      Ex.sum (bin (.comp "cost_flow_in") .times (.comp "flow_in")) ["carriers"])] → Truth W ρ w →
      Reads W costOperationVariable ρ (.arith (bin (.comp "timestep_weights") .times (bin3 (.sub "cost_export") .plus
        (.sub "cost_flow_out") .plus (.sub "cost_flow_in"))))
        [("cost_export", .sum (bin (.comp "cost_export") .times (.comp "flow_export")) ["carriers"]),
         ("cost_flow_out", .sum (bin (.comp "cost_flow_out") .times (.comp "flow_out")) ["carriers"]),
         ("cost_flow_in", t)] [] := by
    intro w t hm hw
    refine ⟨⟨always, by simp [costOperationVariable], by simp⟩, ?_, ?_⟩
    · refine ⟨by simp, ?_, ?_⟩
      · intro m
        simp [findSubs, under, bin, bin3, subRefs, subRefsRest]
      · intro p hp
        simp only [List.mem_cons, List.not_mem_nil, or_false] at hp
        rcases hp with rfl | rfl | rfl
        · exact ⟨_, always, rfl, List.mem_singleton.2 rfl, by simp⟩
        · exact ⟨_, always, rfl, List.mem_singleton.2 rfl, by simp⟩
        · exact ⟨_, w, rfl, hm, hw⟩
    · have : sliceRefs t = [] := by
        simp only [List.mem_cons, Prod.mk.injEq, List.not_mem_nil, or_false] at hm
        rcases hm with ⟨_, rfl⟩ | ⟨_, rfl⟩ <;> rfl
      simp only [List.flatMap_cons, List.flatMap_nil, this]
      exact picks_nil
  have hsum : ∀ {sl : String → Option SliceDef} {p x : String} {g k : Point → V} {ds : List String}, Is E p [] g →
      Is E x ds k → "carriers" ∈ ds → val E sl (.sum (bin (.comp p) .times (.comp x)) ["carriers"]) ρ =
        some (sumOver E "carriers" (fun σ => g σ * k σ) ρ) := fun hg hk hd =>
    (den_sum (es := []) (den_times_right S.numbers (den_comp hg) (den_comp hk)) hd (coords_ne S F henum (by simp))
      (by simp)).1 ρ
  have hv : Present W ["nodes", "techs", "costs", "timesteps"] (costOperationVariable (V := V)).top ρ →
      b.at ρ = some (C.variableCost ρ) := by
    intro g1
    unfold CostModel.variableCost
    by_cases ht : Text W "base_tech" "supply" ρ
    · rw [if_pos ht, h2 _ _ _ g1 (hr (List.mem_cons_self ..) ((truth_isText _ _ _).2 ht))
        (by simp [Expr.inline, Expr.inlineRest, bin, bin3, Ok, OkRest, NoOps, List.lookup])
        (by simp [Expr.inline, Expr.inlineRest, bin, bin3, Apart, ApartRest, List.lookup, costOperationVariable]),
        readAs_val, inline_bin, val_bin, inline_bin3, val_bin3]
      simp only [Expr.inline, lookup_hit, lookup_miss (show "cost_flow_out" ≠ "cost_export" by decide),
        lookup_miss (show "cost_flow_in" ≠ "cost_export" by decide),
        lookup_miss (show "cost_flow_in" ≠ "cost_flow_out" by decide), Option.getD_some, val_bin, val_comp,
        hsum C.isPerExport.is C.isExp.is (by simp),
        hsum C.isPerOut.is C.isOut.is (by simp), C.isWeight.at, C.isPerSource.is.at, C.isSource.is.at, S.numbers.plus,
        S.numbers.times]
    · rw [if_neg ht, h2 _ _ _ g1 (hr (List.mem_cons_of_mem _ (List.mem_cons_self ..))
        (by simpa [truth_isText] using ht))
        (by simp [Expr.inline, Expr.inlineRest, bin, bin3, Ok, OkRest, NoOps, List.lookup])
        (by simp [Expr.inline, Expr.inlineRest, bin, bin3, Apart, ApartRest, List.lookup, costOperationVariable]),
        readAs_val, inline_bin, val_bin, inline_bin3, val_bin3]
      simp only [Expr.inline, lookup_hit, lookup_miss (show "cost_flow_out" ≠ "cost_export" by decide),
        lookup_miss (show "cost_flow_in" ≠ "cost_export" by decide),
        lookup_miss (show "cost_flow_in" ≠ "cost_flow_out" by decide), Option.getD_some, val_bin, val_comp,
        hsum C.isPerExport.is C.isExp.is (by simp),
        hsum C.isPerOut.is C.isOut.is (by simp), hsum C.isPerIn.is C.isInn.is (by simp), C.isWeight.at, S.numbers.plus,
        S.numbers.times]
  refine K.eq hρ (fun h => hv (h1.1 h).1) ?_
  intro hnone
  have habs : ¬ Present W ["nodes", "techs", "costs", "timesteps"] (costOperationVariable (V := V)).top ρ := by
    intro h
    rw [hv h] at hnone
    simp at hnone
  have hd : ∀ d ∈ ["nodes", "techs", "costs", "timesteps"], d ∈ W.matrix.dims ∨ d ∈ W.dims := fun d hd =>
    .inr (F.dims d ((by decide : ∀ d ∈ ["nodes", "techs", "costs", "timesteps"],
      d ∈ ["nodes", "techs", "carriers", "costs", "timesteps"]) d hd))
  have hz : ∀ {p x : String} {g k : Point → V}, Price W E p g →
      Decision W E x ["nodes", "techs", "carriers", "timesteps"] k →
      (∀ σ, GivenAt W p σ → Truth W σ (costOperationVariable (V := V)).top) →
      sumOver E "carriers" (fun σ => g σ * k σ) ρ = 0 := by
    intro p x g k P X htp
    apply sumOver_zero
    intro l hl
    have hσ := set_valid (W := W) hρ (d := "carriers") (l := l) (by rw [← S.coords]; exact hl)
    by_contra h0
    obtain ⟨g1, _⟩ := X.only _ hσ (fun h => h0 (by rw [h, mul_zero]))
    refine habs ⟨hd, _, hσ, sameAlong_set (by decide) l, ?_, htp _ (P.given hσ (fun h => h0 (by rw [h, zero_mul])))⟩
    refine inModel_matrix ?_ g1
    intro d hd
    exact (by decide : ∀ d ∈ ["nodes", "techs", "carriers"], d ∈ ["nodes", "techs", "carriers", "timesteps"]) d
      (F.matrix d hd)
  have hs : C.perSource ρ * C.source ρ = 0 := by
    by_contra h0
    obtain ⟨g1, _⟩ := C.isSource.only ρ hρ (fun h => h0 (by rw [h, mul_zero]))
    have g2 := C.isPerSource.given hρ (fun h => h0 (by rw [h, zero_mul]))
    obtain ⟨g3, σ, g4, g5, g6⟩ := inModel_more (sets' := ["nodes", "techs", "costs", "timesteps"]) hρ g1
      (fun d hd => F.dims d ((by decide : ∀ d ∈ ["nodes", "techs", "costs", "timesteps"],
        d ∈ ["nodes", "techs", "carriers", "costs", "timesteps"]) d hd)) (by
      intro d hd hd'
      have := F.matrix d hd
      simp only [List.mem_cons, List.not_mem_nil, or_false] at hd' this ⊢
      rcases this with rfl | rfl | rfl
      · exact .inl rfl
      · exact .inr (.inl rfl)
      · simp at hd')
    exact habs ⟨g3, σ, g4, g5, g6, (htop σ).2 (.inr ((givenAt_same (H.source _ (by simp)) g5).2 g2))⟩
  unfold CostModel.variableCost
  rw [hz C.isPerExport C.isExp (fun σ h => (htop σ).2 (.inl (.inl (.inl h)))),
    hz C.isPerOut C.isOut (fun σ h => (htop σ).2 (.inl (.inr h))),
    hz C.isPerIn C.isInn (fun σ h => (htop σ).2 (.inl (.inl (.inr h)))), hs]
  simp

/-- Costs that do not depend on flows, in terms of the investment. -/
theorem fixedCost_parts {fi : Point → V} (D : Defines W E enum costOperationFixed f)
    (KI : Decision W E "cost_investment" ["nodes", "techs", "costs"] fi) (h8760 : (8760 : V) ≠ 0) (hρ : Valid W ρ) :
    f ρ = C.years ρ * (sumOver E "carriers" (fun σ => C.perYear σ * C.flowCap σ) ρ + fi ρ * C.fraction ρ) := by
  obtain ⟨b, hb, K⟩ := D
  have hloc : LocalCases W (costOperationFixed (V := V)) := by
    refine ⟨?_, ?_, by simp [costOperationFixed]⟩
    · intro p hp
      simp only [costOperationFixed, List.mem_singleton] at hp
      subst hp
      trivial
    · intro s hs p hp
      simp only [costOperationFixed, List.mem_singleton] at hs
      subst hs
      simp only [List.mem_singleton] at hp
      subst hp
      trivial
  obtain ⟨h1, h2⟩ := expression_present S.wf S.coords henum (by simp [costOperationFixed]) (by rfl) hb hloc hρ
  have htop : ∀ σ, Truth W σ (costOperationFixed (V := V)).top ↔ ((GivenAt W "cost_om_annual" σ ∧
      Exists W "flow_cap" σ) ∨ (Exists W "cost_investment" σ ∧ GivenAt W "cost_om_annual_investment_fraction" σ)) := by
    intro σ
    simp only [costOperationFixed, truth_either, truth_both, truth_built', truth_given']
  have hr : Reads W costOperationFixed ρ (.arith (bin (.sub "annualisation_weight") .times (bin (.sum (bin
      (.comp "cost_om_annual") .times (.comp "flow_cap")) ["carriers"]) .plus (bin (.comp "cost_investment") .times
      (.comp "cost_om_annual_investment_fraction")))) : Body V)
      [("annualisation_weight", bin (.sum (bin (.comp "timestep_resolution") .times (.comp "timestep_weights"))
        ["timesteps"]) .div (.num 8760))] [] := by
    refine ⟨⟨always, by simp [costOperationFixed], by simp⟩, ?_, picks_nil⟩
    exact picks_one (n := "annualisation_weight") (by simp [findSubs, under, bin, subRefs, subRefsRest])
      (by simp [findSubs, under, bin, subRefs, subRefsRest]) (w := always) (by rfl) (List.mem_singleton.2 rfl) (by simp)
  have hv : Present W ["nodes", "techs", "costs"] (costOperationFixed (V := V)).top ρ →
      b.at ρ = some (C.years ρ * (sumOver E "carriers" (fun σ => C.perYear σ * C.flowCap σ) ρ + fi ρ * C.fraction ρ)) := by
    intro g1
    have e1 := fun sl => (den_sum (sl := sl) (es := []) (den_times_right S.numbers (den_comp C.isPerYear.is)
      (den_comp C.isFlowCap.is)) (d := "carriers") (by simp) (coords_ne S F henum (by simp)) (by simp)).1 ρ
    have e2 := fun sl => (den_sum (sl := sl) (es := []) (den_times_right S.numbers (den_comp C.isHours)
      (den_comp C.isWeight)) (d := "timesteps") (by simp) (coords_ne S F henum (by simp)) (by simp)).1 ρ
    rw [h2 _ _ _ g1 hr
      (by simp [Expr.inline, Expr.inlineRest, bin, Ok, OkRest, NoOps, List.lookup])
      (by simp [Expr.inline, Expr.inlineRest, bin, Apart, ApartRest, List.lookup, costOperationFixed]),
      readAs_val, inline_bin, val_bin]
    simp only [Expr.inline, inline_bin, lookup_hit, Option.getD_some, val_bin, val_comp, val_num, e1, e2, KI.is.at,
      C.isFraction.is.at, S.numbers.plus, S.numbers.times, S.numbers.div _ _ h8760, CostModel.years]
  refine K.eq hρ (fun h => hv (h1.1 h).1) ?_
  intro hnone
  have habs : ¬ Present W ["nodes", "techs", "costs"] (costOperationFixed (V := V)).top ρ := by
    intro h
    rw [hv h] at hnone
    simp at hnone
  have hz : sumOver E "carriers" (fun σ => C.perYear σ * C.flowCap σ) ρ = 0 := by
    apply sumOver_zero
    intro l hl
    have hσ := set_valid (W := W) hρ (d := "carriers") (l := l) (by rw [← S.coords]; exact hl)
    by_contra h0
    obtain ⟨g1, g2⟩ := C.isFlowCap.only _ hσ (fun h => h0 (by rw [h, mul_zero]))
    refine habs ⟨?_, _, hσ, sameAlong_set (by decide) l, inModel_matrix F.matrix g1,
      (htop _).2 (.inl ⟨C.isPerYear.given hσ (fun h => h0 (by rw [h, zero_mul])), g2⟩)⟩
    exact fun d hd => .inr (F.dims d ((by decide : ∀ d ∈ ["nodes", "techs", "costs"],
      d ∈ ["nodes", "techs", "carriers", "costs", "timesteps"]) d hd))
  have hi : fi ρ * C.fraction ρ = 0 := by
    by_contra h0
    obtain ⟨g1, g2⟩ := KI.only ρ hρ (fun h => h0 (by rw [h, zero_mul]))
    have g3 := C.isFraction.given hρ (fun h => h0 (by rw [h, mul_zero]))
    exact habs (present_of (fun _ h => h) g1 (fun _ _ => rfl) g2 KI.within
      (fun σ hσ hs => (htop σ).2 (.inr ⟨hσ, (givenAt_same (H.caps _ (by simp)) hs).2 g3⟩)))
  rw [hz, hi, add_zero, mul_zero]

end

end BaseMath
end Calliope
