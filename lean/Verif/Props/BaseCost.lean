import Mathlib.Tactic.Ring
import Mathlib.Tactic.FieldSimp
import Mathlib.Tactic.IntervalCases
import Mathlib.Analysis.SpecialFunctions.Pow.Deriv
import Verif.Proofs.BaseMath
import Verif.Spec.BaseCost
import Verif.Props.BaseBalance

/-!
# C64: annualised investment costs
-/

namespace Calliope
namespace BaseMath

open Grid Infix Expr Expand Build Where

variable {V : Type} [Field V]

theorem enum_pair {enum : List String → List String} (h : Traverses enum) {a b : String} (hab : a ≠ b) :
    enum [a, b] = [a, b] ∨ enum [a, b] = [b, a] := by
  have hp : (enum [a, b]).Perm [a, b] := by
    rw [List.perm_ext_iff_of_nodup (h [a, b]).1 (by simp [hab])]
    exact (h [a, b]).2
  rcases hl : enum [a, b] with _ | ⟨x, _ | ⟨y, _ | ⟨z, l⟩⟩⟩
  · rw [hl] at hp; simpa using hp.length_eq
  · rw [hl] at hp; simpa using hp.length_eq
  · rw [hl] at hp
    have hx : x = a ∨ x = b := by simpa using hp.subset (List.mem_cons_self ..)
    have hy : y = a ∨ y = b := by simpa using hp.subset (List.mem_cons_of_mem _ (List.mem_cons_self ..))
    have hn := hp.nodup_iff.2 (by simp [hab])
    simp at hn
    rcases hx with rfl | rfl <;> rcases hy with rfl | rfl
    · exact absurd rfl hn
    · exact .inl rfl
    · exact .inr rfl
    · exact absurd rfl hn
  · rw [hl] at hp; simpa using hp.length_eq

/-- The expression of `cost_investment_annualised`. -/
def annualised : Ex V :=
  bin3 (.sub "annualisation_weight") .times (.sub "depreciation_rate") .times (.comp "cost_investment")

theorem parse_cost {enum : List String → List String} (henum : Traverses enum) :
    ∃ mk : Nat → Cond × Ex V → Equation V Cond,
      parseEquations enum (costInvestmentAnnualised (V := V)).defn =
        .ok (depreciationRate.zipIdx.map (fun p => mk p.2 p.1)) ∧
      ∀ i p, (mk i p).body = .arith annualised ∧ (∀ w, w ∈ (mk i p).wheres ↔ w = always ∨ w = p.1) ∧
        (mk i p).subs.lookup "annualisation_weight" = some yearPart ∧
        (mk i p).subs.lookup "depreciation_rate" = some p.2 ∧ (mk i p).slices = [] := by
  have hne : ("depreciation_rate" == "annualisation_weight") = false := by decide
  rcases enum_pair henum (show "annualisation_weight" ≠ "depreciation_rate" by decide) with he | he
  · refine ⟨fun i p => ⟨[("cost_investment_annualised", 0), ("annualisation_weight", 0), ("depreciation_rate", i)],
      [always, always, p.1], .arith annualised, [("annualisation_weight", yearPart), ("depreciation_rate", p.2)], []⟩,
      ?_, ?_⟩
    · simp only [costInvestmentAnnualised, parseEquations, initial, List.zipIdx_cons, List.zipIdx_nil, List.map_cons,
        List.map_nil, extendAll, findSubs, subRefs, subRefsRest, List.cons_append, List.append_nil, List.nil_append,
        under, extend, bin3, he, gather, List.lookup_cons, beq_self_eq_true, cases, annualisationWeight,
        depreciationRate, product, annualised, List.flatMap_cons, List.flatMap_nil, addSubs, findSlices, sliceRefs,
        sliceRefsRest, bin, yearPart, enum_nil henum, hne]
    · intro i p
      refine ⟨rfl, ?_, rfl, rfl, rfl⟩
      intro w
      simp
  · refine ⟨fun i p => ⟨[("cost_investment_annualised", 0), ("depreciation_rate", i), ("annualisation_weight", 0)],
      [always, p.1, always], .arith annualised, [("depreciation_rate", p.2), ("annualisation_weight", yearPart)], []⟩,
      ?_, ?_⟩
    · simp only [costInvestmentAnnualised, parseEquations, initial, List.zipIdx_cons, List.zipIdx_nil, List.map_cons,
        List.map_nil, extendAll, findSubs, subRefs, subRefsRest, List.cons_append, List.append_nil, List.nil_append,
        under, extend, bin3, he, gather, List.lookup_cons, beq_self_eq_true, cases, annualisationWeight,
        depreciationRate, product, annualised, List.flatMap_cons, List.flatMap_nil, addSubs, findSlices, sliceRefs,
        sliceRefsRest, bin, yearPart, enum_nil henum, hne]
    · intro i p
      refine ⟨rfl, ?_, rfl, rfl, rfl⟩
      intro w
      simp
      tauto

/-! ### Conditions -/

omit [Field V] in
theorem truth_zero {W : Where.Env} (n : String) (ρ : Point) :
    Truth W ρ (.atom (.cmp (.input n) .eq (.num 0))) ↔
      valueOf (W.input n) ρ = .num 0 ∨ valueOf (W.input n) ρ = .bool false := by
  simp only [Truth, LeafTruth, Compares, lhsValue, rhsValue, Where.Same]
  cases valueOf (W.input n) ρ with
  | bool b => cases b <;> simp [asNumber]
  | num q => simp [asNumber]
  | _ => simp [asNumber]

omit [Field V] in
theorem truth_positive {W : Where.Env} (n : String) (ρ : Point) :
    Truth W ρ (.atom (.cmp (.input n) .gt (.num 0))) ↔
      (∃ q, valueOf (W.input n) ρ = .num q ∧ 0 < q) ∨ valueOf (W.input n) ρ = .bool true ∨
        valueOf (W.input n) ρ = .posInf := by
  simp only [Truth, LeafTruth, Compares, lhsValue, rhsValue]
  cases valueOf (W.input n) ρ with
  | bool b =>
    cases b
    · simp only [asNumber]
      constructor
      · intro h
        cases h with
        | num h => simp at h
      · simp
    · simp only [asNumber]
      constructor
      · intro _
        simp
      · intro _
        exact Less.num (by decide)
  | num q =>
    simp only [asNumber]
    constructor
    · intro h
      cases h with
      | num h => exact .inl ⟨q, rfl, h⟩
    · rintro (⟨q', h, hq⟩ | h | h)
      · cases h
        exact Less.num hq
      · cases h
      · cases h
  | posInf =>
    simp only [asNumber]
    exact ⟨fun _ => .inr (.inr trivial), fun _ => Less.above 0⟩
  | negInf =>
    simp only [asNumber]
    constructor
    · intro h; cases h
    · simp
  | nan =>
    simp only [asNumber]
    constructor
    · intro h; cases h
    · simp
  | str s =>
    simp only [asNumber]
    constructor
    · intro h; cases h
    · simp

/-- The number of the case of the depreciation rate that holds at an item. -/
def InCase (V : Type) [Field V] (W : Where.Env) (ρ : Point) (i : Nat) : Prop :=
  ∃ w x, (depreciationRate (V := V))[i]? = some (w, x) ∧ Truth W ρ w

theorem inCase_iff {W : Where.Env} {ρ : Point} {i : Nat} : InCase V W ρ i ↔
    (i = 0 ∧ GivenAt W "cost_depreciation_rate" ρ) ∨
    (i = 1 ∧ ¬ GivenAt W "cost_depreciation_rate" ρ ∧ (¬ GivenAt W "cost_interest_rate" ρ ∨
      valueOf (W.input "cost_interest_rate") ρ = .num 0 ∨ valueOf (W.input "cost_interest_rate") ρ = .bool false)) ∨
    (i = 2 ∧ ¬ GivenAt W "cost_depreciation_rate" ρ ∧
      ((∃ q, valueOf (W.input "cost_interest_rate") ρ = .num q ∧ 0 < q) ∨
        valueOf (W.input "cost_interest_rate") ρ = .bool true ∨ valueOf (W.input "cost_interest_rate") ρ = .posInf)) := by
  unfold InCase GivenAt
  match i with
  | 0 => simp [depreciationRate]
  | 1 =>
    simp only [depreciationRate, List.getElem?_cons_succ, List.getElem?_cons_zero, Option.some.injEq, Prod.mk.injEq]
    constructor
    · rintro ⟨w, x, ⟨rfl, rfl⟩, ht⟩
      rw [truth_both, truth_no, truth_either, truth_no, truth_given, truth_given, truth_zero] at ht
      exact .inr (.inl ⟨trivial, ht⟩)
    · rintro (h | ⟨_, ht⟩ | h)
      · exact absurd h.1 (by decide)
      · refine ⟨_, _, ⟨rfl, rfl⟩, ?_⟩
        rw [truth_both, truth_no, truth_either, truth_no, truth_given, truth_given, truth_zero]
        exact ht
      · exact absurd h.1 (by decide)
  | 2 =>
    simp only [depreciationRate, List.getElem?_cons_succ, List.getElem?_cons_zero, Option.some.injEq, Prod.mk.injEq]
    constructor
    · rintro ⟨w, x, ⟨rfl, rfl⟩, ht⟩
      rw [truth_both, truth_no, truth_given, truth_positive] at ht
      exact .inr (.inr ⟨trivial, ht⟩)
    · rintro (h | h | ⟨_, ht⟩)
      · exact absurd h.1 (by decide)
      · exact absurd h.1 (by decide)
      · refine ⟨_, _, ⟨rfl, rfl⟩, ?_⟩
        rw [truth_both, truth_no, truth_given, truth_positive]
        exact ht
  | n + 3 => simp [depreciationRate]

/-- C64, cases: an item whose interest rate is missing, zero or positive is in exactly one case.  Missing: rates that
are negative (`C64_negative`) or infinite (`C64_infinite`), for which it is false. -/
theorem C64_cases_partial {W : Where.Env} {ρ : Point} (hk : (W.input "cost_interest_rate").kind ≠ .boolean)
    (h0 : (W.input "cost_interest_rate").default = .num 0)
    (hr : (W.input "cost_interest_rate").arr.at ρ = .nan ∨
      ∃ q, (W.input "cost_interest_rate").arr.at ρ = .num q ∧ 0 ≤ q) :
    ∃! i, InCase V W ρ i := by
  by_cases hg : GivenAt W "cost_depreciation_rate" ρ
  · exact ⟨0, inCase_iff.2 (.inl ⟨rfl, hg⟩), by
      intro i hi
      rcases inCase_iff.1 hi with h | h | h
      · exact h.1
      · exact absurd hg h.2.1
      · exact absurd hg h.2.1⟩
  · rcases hr with hr | ⟨q, hr, hq⟩
    · have hv : valueOf (W.input "cost_interest_rate") ρ = .num 0 := by
        unfold valueOf
        rw [if_pos hr, h0]
      refine ⟨1, inCase_iff.2 (.inr (.inl ⟨rfl, hg, .inr (.inl hv)⟩)), ?_⟩
      intro i hi
      rcases inCase_iff.1 hi with h | h | h
      · exact absurd h.2 hg
      · exact h.1
      · rw [hv] at h
        rcases h.2.2 with ⟨q, h1, h2⟩ | h1 | h1
        · cases h1
          exact absurd h2 (by decide)
        · cases h1
        · cases h1
    · have hv : valueOf (W.input "cost_interest_rate") ρ = .num q := by
        unfold valueOf
        rw [hr, if_neg (by simp)]
      have hgi : GivenAt W "cost_interest_rate" ρ := by
        refine .inr ⟨hk, ?_⟩
        rw [hr]
        simp
      rcases eq_or_lt_of_le hq with rfl | hq
      · refine ⟨1, inCase_iff.2 (.inr (.inl ⟨rfl, hg, .inr (.inl hv)⟩)), ?_⟩
        intro i hi
        rcases inCase_iff.1 hi with h | h | h
        · exact absurd h.2 hg
        · exact h.1
        · rw [hv] at h
          rcases h.2.2 with ⟨q, h1, h2⟩ | h1 | h1
          · cases h1
            exact absurd h2 (by decide)
          · cases h1
          · cases h1
      · refine ⟨2, inCase_iff.2 (.inr (.inr ⟨rfl, hg, .inl ⟨q, hv, hq⟩⟩)), ?_⟩
        intro i hi
        rcases inCase_iff.1 hi with h | h | h
        · exact absurd h.2 hg
        · rw [hv] at h
          rcases h.2.2 with h1 | h1 | h1
          · exact absurd hgi h1
          · cases h1
            exact absurd hq (by decide)
          · cases h1
        · exact h.1

/-- The inputs that the annualised cost depends on have no other dimensions than it. -/
def CostInputs (W : Where.Env) : Prop :=
  Within W ["nodes", "techs", "costs"] ["cost_depreciation_rate", "cost_interest_rate"] ∧
    ResultWithin W ["nodes", "techs", "costs"] "cost_investment"

theorem case_steady {W : Where.Env} (hw : CostInputs W) {ρ σ : Point}
    (h : SameAlong ["nodes", "techs", "costs"] ρ σ) {i : Nat} {w : Cond} {x : Ex V}
    (hi : (depreciationRate (V := V))[i]? = some (w, x)) : Truth W σ w ↔ Truth W ρ w := by
  have hd := hw.1 "cost_depreciation_rate" (by simp)
  have hr := hw.1 "cost_interest_rate" (by simp)
  have e1 := at_congr (W.input "cost_depreciation_rate").arr (σ := σ) (ρ := ρ) (fun d hdd => h d (hd d hdd))
  have e2 := at_congr (W.input "cost_interest_rate").arr (σ := σ) (ρ := ρ) (fun d hdd => h d (hr d hdd))
  have e3 := valueOf_same h hr
  match i, hi with
  | 0, hi =>
    simp only [depreciationRate, List.getElem?_cons_zero, Option.some.injEq, Prod.mk.injEq] at hi
    obtain ⟨rfl, rfl⟩ := hi
    rw [truth_given, truth_given, e1]
  | 1, hi =>
    simp only [depreciationRate, List.getElem?_cons_zero, List.getElem?_cons_succ, Option.some.injEq,
      Prod.mk.injEq] at hi
    obtain ⟨rfl, rfl⟩ := hi
    simp only [truth_both, truth_no, truth_either, truth_given, truth_zero, e1, e2, e3]
  | 2, hi =>
    simp only [depreciationRate, List.getElem?_cons_zero, List.getElem?_cons_succ, Option.some.injEq,
      Prod.mk.injEq] at hi
    obtain ⟨rfl, rfl⟩ := hi
    simp only [truth_both, truth_no, truth_given, truth_positive, e1, e3]
  | n + 3, hi => simp [depreciationRate] at hi

theorem exists_steady {W : Where.Env} {sets : List String} {n : String} (hw : ResultWithin W sets n) {ρ σ : Point}
    (h : SameAlong sets ρ σ) : Exists W n σ ↔ Exists W n ρ := by
  unfold Exists
  constructor
  · rintro ⟨a, ha, ht⟩
    exact ⟨a, ha, by rw [← at_congr a (σ := σ) (ρ := ρ) (fun d hd => h d (hw a ha d hd))]; exact ht⟩
  · rintro ⟨a, ha, ht⟩
    exact ⟨a, ha, by rw [at_congr a (σ := σ) (ρ := ρ) (fun d hd => h d (hw a ha d hd))]; exact ht⟩

theorem case_simple {i : Nat} {w : Cond} {x : Ex V} (hi : (depreciationRate (V := V))[i]? = some (w, x)) :
    subRefs x = [] ∧ (Ok x ∧ Apart ["nodes", "techs", "costs"] x) := by
  match i, hi with
  | 0, hi | 1, hi | 2, hi =>
    simp only [depreciationRate, List.getElem?_cons_zero, List.getElem?_cons_succ, Option.some.injEq,
      Prod.mk.injEq] at hi
    obtain ⟨rfl, rfl⟩ := hi
    simp [subRefs, subRefsRest, bin, Ok, Apart, OkRest, ApartRest]
  | n + 3, hi => simp [depreciationRate] at hi

theorem cost_at {W : Where.Env} {E : Expr.Env V} {pw : V → V → V} (S : Setting W E pw) (hw : CostInputs W)
    {enum : List String → List String} (henum : Traverses enum)
    {b : Arr (Option V)} (hb : buildExpression W E enum costInvestmentAnnualised = .ok b)
    {ρ : Point} (hρ : Valid W ρ) :
    (b.at ρ ≠ none ↔ InModel W ["nodes", "techs", "costs"] ρ ∧ Exists W "cost_investment" ρ ∧ ∃ i, InCase V W ρ i) ∧
    (InModel W ["nodes", "techs", "costs"] ρ → Exists W "cost_investment" ρ →
      ∀ i j, InCase V W ρ i → InCase V W ρ j → i = j) ∧
    (InModel W ["nodes", "techs", "costs"] ρ → Exists W "cost_investment" ρ →
      ∀ (i : Nat) w x, (depreciationRate (V := V))[i]? = some (w, x) → Truth W ρ w →
        b.at ρ = plain E (bin3 yearPart .times x .times (.comp "cost_investment")) ρ) := by
  obtain ⟨mk, hes, hmk⟩ := parse_cost (V := V) henum
  obtain ⟨h1, h2, h3⟩ := C71_expression S.wf S.coords (by simp [costInvestmentAnnualised]) hb hes hρ
  have happ : ∀ (i : Nat) w x, (depreciationRate (V := V))[i]? = some (w, x) →
      (Applies W costInvestmentAnnualised ρ (mk i (w, x)) ↔
        InModel W ["nodes", "techs", "costs"] ρ ∧ Exists W "cost_investment" ρ ∧ Truth W ρ w) := by
    intro i w x hi
    rw [applies_iff hρ]
    · have : Truth W ρ (costInvestmentAnnualised (V := V)).top ↔ Exists W "cost_investment" ρ :=
        truth_built _ _
      rw [this]
      constructor
      · rintro ⟨a, b, c⟩
        exact ⟨a, b, c w (((hmk i (w, x)).2.1 w).2 (.inr rfl))⟩
      · rintro ⟨a, b, c⟩
        refine ⟨a, b, ?_⟩
        intro w' hw'
        rcases ((hmk i (w, x)).2.1 w').1 hw' with rfl | rfl
        · simp
        · exact c
    · intro σ hσ
      have hb : ∀ τ, Truth W τ (costInvestmentAnnualised (V := V)).top ↔ Exists W "cost_investment" τ :=
        fun τ => truth_built _ _
      rw [hb, hb]
      exact exists_steady hw.2 hσ
    · intro w' hw' σ hσ
      rcases ((hmk i (w, x)).2.1 w').1 hw' with rfl | rfl
      · simp
      · exact case_steady hw hσ hi
  have hmem : ∀ (i : Nat) w x, (depreciationRate (V := V))[i]? = some (w, x) →
      mk i (w, x) ∈ (depreciationRate (V := V)).zipIdx.map (fun p => mk p.2 p.1) := by
    intro i w x hi
    rw [List.mem_map]
    exact ⟨((w, x), i), by rw [List.mem_zipIdx_iff_getElem?]; exact hi, rfl⟩
  refine ⟨?_, ?_, ?_⟩
  · rw [ne_eq, h1]
    push Not
    constructor
    · rintro ⟨e, he, ha⟩
      rw [List.mem_map] at he
      obtain ⟨⟨⟨w, x⟩, i⟩, hp, rfl⟩ := he
      rw [List.mem_zipIdx_iff_getElem?] at hp
      obtain ⟨a, b, c⟩ := (happ i w x hp).1 ha
      exact ⟨a, b, i, w, x, hp, c⟩
    · rintro ⟨a, b, i, w, x, hp, c⟩
      exact ⟨_, hmem i w x hp, (happ i w x hp).2 ⟨a, b, c⟩⟩
  · rintro hm hx i j ⟨w, x, hi, ht⟩ ⟨w', x', hj, ht'⟩
    rcases lt_trichotomy i j with hij | hij | hij
    · exfalso
      rw [List.pairwise_iff_getElem] at h2
      obtain ⟨hil, hie⟩ := List.getElem?_eq_some_iff.1 hi
      obtain ⟨hjl, hje⟩ := List.getElem?_eq_some_iff.1 hj
      have := h2 i j (by simpa using hil) (by simpa using hjl) hij
      simp only [List.getElem_map, List.getElem_zipIdx, Nat.zero_add, hie, hje] at this
      exact this ⟨(happ i w x hi).2 ⟨hm, hx, ht⟩, (happ j w' x' hj).2 ⟨hm, hx, ht'⟩⟩
    · exact hij
    · exfalso
      rw [List.pairwise_iff_getElem] at h2
      obtain ⟨hil, hie⟩ := List.getElem?_eq_some_iff.1 hi
      obtain ⟨hjl, hje⟩ := List.getElem?_eq_some_iff.1 hj
      have := h2 j i (by simpa using hjl) (by simpa using hil) hij
      simp only [List.getElem_map, List.getElem_zipIdx, Nat.zero_add, hie, hje] at this
      exact this ⟨(happ j w' x' hj).2 ⟨hm, hx, ht'⟩, (happ i w x hi).2 ⟨hm, hx, ht⟩⟩
  · intro hm hx i w x hi ht
    obtain ⟨hbody, _, hy, hdr, hsl⟩ := hmk i (w, x)
    obtain ⟨t, htb, hsimple⟩ := h3 _ (hmem i w x hi) ((happ i w x hi).2 ⟨hm, hx, ht⟩)
    rw [hbody] at htb
    cases htb
    obtain ⟨hs1, hs2, hs3⟩ := case_simple hi
    have hinl : Expr.inline (fun n => (mk i (w, x)).subs.lookup n) annualised =
        bin3 yearPart .times x .times (.comp "cost_investment") := by
      unfold annualised
      rw [inline_bin3]
      simp only [Expr.inline, hy, hdr, Option.getD_some]
    have hok : Simple costInvestmentAnnualised (mk i (w, x)) annualised := by
      unfold Simple
      rw [hinl]
      simp [bin3, yearPart, bin, Ok, OkRest, Apart, ApartRest, hs2, hs3, costInvestmentAnnualised]
    rw [(hsimple hok).1]
    unfold value plain
    rw [hinl, hsl]

/-! ### The value -/

theorem year_part {W : Where.Env} {E : Expr.Env V} {pw : V → V → V} (S : Setting W E pw) (D : CostData E)
    (hc : E.coords "timesteps" ≠ []) (h8 : (8760 : V) ≠ 0) (ρ : Point) :
    (mean E (fun n => List.lookup n []) (fun _ => true) [] yearPart).val ρ = some (D.years ρ) := by
  unfold yearPart
  rw [mean_bin, mean_sum_expr (f := fun σ => D.hours σ * D.weight σ)]
  · simp only [mean]
    rw [S.numbers.div _ _ h8]
    rfl
  · intro σ
    rw [mean_bin, mean_comp D.isHours, mean_comp D.isWeight, S.numbers.times]
  · obtain ⟨c, hc1, _, hd⟩ := D.isHours
    rcases hd with hd | hd
    · left
      simp only [bin, mean, meanRest, hc1, Fn.mask, List.append_nil, List.mem_append]
      exact .inl (hd _ (by simp))
    · right
      intro σ
      rw [hd, zero_mul]
  · exact hc

/-- C64, value: in each of the three cases the annualised cost is the part of the year that is modelled, times the
depreciation rate of that case, times the investment cost. -/
theorem C64_value {W : Where.Env} {E : Expr.Env V} {pw : V → V → V} (S : Setting W E pw) (hw : CostInputs W)
    (D : CostData E) (hc : W.coords "timesteps" ≠ []) (h8 : (8760 : V) ≠ 0)
    {enum : List String → List String} (henum : Traverses enum)
    {b : Arr (Option V)} (hb : buildExpression W E enum costInvestmentAnnualised = .ok b)
    {ρ : Point} (hρ : Valid W ρ) (hm : InModel W ["nodes", "techs", "costs"] ρ)
    (hx : Exists W "cost_investment" ρ) :
    (GivenAt W "cost_depreciation_rate" ρ → b.at ρ = some (D.years ρ * D.depreciation ρ * D.invest ρ)) ∧
    (¬ GivenAt W "cost_depreciation_rate" ρ →
      (¬ GivenAt W "cost_interest_rate" ρ ∨ valueOf (W.input "cost_interest_rate") ρ = .num 0) →
      D.lifetime ρ ≠ 0 → b.at ρ = some (D.years ρ * (1 / D.lifetime ρ) * D.invest ρ)) ∧
    (¬ GivenAt W "cost_depreciation_rate" ρ →
      (∃ q, valueOf (W.input "cost_interest_rate") ρ = .num q ∧ 0 < q) →
      pw (1 + D.interest ρ) (D.lifetime ρ) - 1 ≠ 0 →
      b.at ρ = some (D.years ρ * (D.interest ρ * pw (1 + D.interest ρ) (D.lifetime ρ) /
        (pw (1 + D.interest ρ) (D.lifetime ρ) - 1)) * D.invest ρ)) := by
  obtain ⟨_, _, hv⟩ := cost_at S hw henum hb hρ
  have hv := hv hm hx
  have hc' : E.coords "timesteps" ≠ [] := by rw [S.coords]; exact hc
  refine ⟨?_, ?_, ?_⟩
  · intro hg
    obtain ⟨w, x, hi, ht⟩ := (inCase_iff (V := V)).2 (.inl ⟨rfl, hg⟩)
    have := hv 0 w x hi ht
    simp only [depreciationRate, List.getElem?_cons_zero, Option.some.injEq, Prod.mk.injEq] at hi
    obtain ⟨_, rfl⟩ := hi
    rw [this]
    unfold plain
    rw [mean_bin3, year_part S D hc' h8, mean_comp D.isDepreciation, mean_comp D.isInvest, S.numbers.times,
      S.numbers.times]
  · intro hg hr hl
    obtain ⟨w, x, hi, ht⟩ := (inCase_iff (V := V)).2 (.inr (.inl ⟨rfl, hg, hr.imp_right .inl⟩))
    have := hv 1 w x hi ht
    simp only [depreciationRate, List.getElem?_cons_zero, List.getElem?_cons_succ, Option.some.injEq,
      Prod.mk.injEq] at hi
    obtain ⟨_, rfl⟩ := hi
    rw [this]
    unfold plain
    rw [mean_bin3, year_part S D hc' h8, mean_bin, mean_comp D.isLifetime, mean_comp D.isInvest]
    simp only [mean]
    rw [S.numbers.div _ _ hl, S.numbers.times, S.numbers.times]
  · intro hg hr hl
    obtain ⟨w, x, hi, ht⟩ := (inCase_iff (V := V)).2 (.inr (.inr ⟨rfl, hg, .inl hr⟩))
    have := hv 2 w x hi ht
    simp only [depreciationRate, List.getElem?_cons_zero, List.getElem?_cons_succ, Option.some.injEq,
      Prod.mk.injEq] at hi
    obtain ⟨_, rfl⟩ := hi
    rw [this]
    unfold plain
    rw [mean_bin3, year_part S D hc' h8]
    simp only [mean_bin, mean_comp D.isLifetime, mean_comp D.isInvest, mean_comp D.isInterest, mean_num,
      S.numbers.plus, S.numbers.pow, S.numbers.times, S.numbers.minus]
    rw [S.numbers.div _ _ hl, S.numbers.times, S.numbers.times]

/-! ### Annuities -/

theorem annuity_sum {r : V} (h1 : 1 + r ≠ 0) : ∀ n : ℕ,
    r * (1 + r) ^ n * ((List.range n).map (fun k => 1 / (1 + r) ^ (k + 1))).sum = (1 + r) ^ n - 1
  | 0 => by simp
  | n + 1 => by
    rw [List.range_succ, List.map_append, List.sum_append]
    simp only [List.map_cons, List.map_nil, List.sum_cons, List.sum_nil, add_zero]
    have ih := annuity_sum h1 n
    have : r * (1 + r) ^ (n + 1) * (1 / (1 + r) ^ (n + 1)) = r := by
      field_simp
    rw [mul_add, this, pow_succ, show r * ((1 + r) ^ n * (1 + r)) *
      ((List.range n).map (fun k => 1 / (1 + r) ^ (k + 1))).sum = (1 + r) * (r * (1 + r) ^ n *
      ((List.range n).map (fun k => 1 / (1 + r) ^ (k + 1))).sum) by ring, ih]
    ring

theorem sum_scale (a : V) (f : ℕ → V) : ∀ l : List ℕ, (l.map (fun k => a * f k)).sum = a * (l.map f).sum
  | [] => by simp
  | x :: l => by simp [sum_scale a f l, mul_add]

/-- The annuity formula repays the investment with interest. -/
theorem C64_annuity {r : V} {n : ℕ} (h1 : 1 + r ≠ 0) (h2 : (1 + r) ^ n - 1 ≠ 0) :
    Repays (r * (1 + r) ^ n / ((1 + r) ^ n - 1)) r n := by
  unfold Repays
  have := annuity_sum h1 n
  have hs := sum_scale (r * (1 + r) ^ n / ((1 + r) ^ n - 1)) (fun k => 1 / (1 + r) ^ (k + 1)) (List.range n)
  simp only [mul_one_div] at hs
  rw [hs, div_mul_eq_mul_div, this, div_self h2]

/-- Without interest, equal parts repay the investment. -/
theorem C64_no_interest {n : ℕ} (h : (n : V) ≠ 0) : Repays (1 / (n : V)) 0 n := by
  unfold Repays
  simp [h]

/-- C64, annuity: without a depreciation rate, and with an interest rate that is missing, zero or positive, the
annualised cost is the part of the year that is modelled, times the investment cost, times that fraction of it which,
paid in each year of the lifetime, repays it with interest. -/
theorem C64_repays [LinearOrder V] [IsStrictOrderedRing V]
    {W : Where.Env} {E : Expr.Env V} {pw : V → V → V} (S : Setting W E pw) (hw : CostInputs W)
    (D : CostData E) (hc : W.coords "timesteps" ≠ [])
    {enum : List String → List String} (henum : Traverses enum)
    {b : Arr (Option V)} (hb : buildExpression W E enum costInvestmentAnnualised = .ok b)
    {ρ : Point} (hρ : Valid W ρ) (hm : InModel W ["nodes", "techs", "costs"] ρ)
    (hx : Exists W "cost_investment" ρ) (hg : ¬ GivenAt W "cost_depreciation_rate" ρ)
    (h0 : (W.input "cost_interest_rate").default = .num 0)
    (hr : (W.input "cost_interest_rate").arr.at ρ = .nan ∨
      ∃ q, (W.input "cost_interest_rate").arr.at ρ = .num q ∧ 0 ≤ q)
    (hsame : ∀ q, valueOf (W.input "cost_interest_rate") ρ = .num q → D.interest ρ = (q : V))
    {n : ℕ} (hn : 0 < n) (hl : D.lifetime ρ = n) (hp : ∀ x, pw x (n : V) = x ^ n) :
    ∃ a, Repays a (D.interest ρ) n ∧ b.at ρ = some (D.years ρ * a * D.invest ρ) := by
  have hn0 : (n : V) ≠ 0 := by exact_mod_cast hn.ne'
  obtain ⟨_, v1, v2⟩ := C64_value S hw D hc (by norm_num) henum hb hρ hm hx
  have key : ∃ q, valueOf (W.input "cost_interest_rate") ρ = .num q ∧ 0 ≤ q := by
    unfold valueOf
    rcases hr with hr | ⟨q, hr, hq⟩
    · exact ⟨0, by rw [if_pos hr, h0], le_rfl⟩
    · exact ⟨q, by rw [hr, if_neg (by simp)], hq⟩
  obtain ⟨q, hv, hq⟩ := key
  rcases eq_or_lt_of_le hq with rfl | hq
  · refine ⟨1 / (n : V), ?_, ?_⟩
    · rw [hsame 0 hv, Rat.cast_zero]
      exact C64_no_interest hn0
    · rw [v1 hg (.inr hv) (by rw [hl]; exact hn0), hl]
  · have hpos : (0 : V) < D.interest ρ := by
      rw [hsame q hv]
      exact_mod_cast hq
    have hgt : (1 : V) < (1 + D.interest ρ) ^ n := one_lt_pow₀ (by linarith) hn.ne'
    refine ⟨_, C64_annuity (by linarith) (sub_ne_zero.2 hgt.ne'), ?_⟩
    rw [v2 hg ⟨q, hv, hq⟩ (by rw [hl, hp]; exact sub_ne_zero.2 hgt.ne'), hl, hp]

/-! ### Rates for which it fails -/

/-- With a negative interest rate and no depreciation rate no case applies, so the annualised cost does not exist: the
investment is free. -/
theorem C64_negative {W : Where.Env} {E : Expr.Env V} {pw : V → V → V} (S : Setting W E pw) (hw : CostInputs W)
    {enum : List String → List String} (henum : Traverses enum)
    {b : Arr (Option V)} (hb : buildExpression W E enum costInvestmentAnnualised = .ok b)
    {ρ : Point} (hρ : Valid W ρ) (hk : (W.input "cost_interest_rate").kind ≠ .boolean)
    (hg : ¬ GivenAt W "cost_depreciation_rate" ρ)
    {q : Rat} (hr : (W.input "cost_interest_rate").arr.at ρ = .num q) (hq : q < 0) :
    b.at ρ = none := by
  by_contra h
  obtain ⟨_, _, i, hi⟩ := (cost_at S hw henum hb hρ).1.1 h
  have hv : valueOf (W.input "cost_interest_rate") ρ = .num q := by
    unfold valueOf
    rw [hr, if_neg (by simp)]
  have hgi : GivenAt W "cost_interest_rate" ρ := .inr ⟨hk, by rw [hr]; simp⟩
  rcases inCase_iff.1 hi with h | h | h
  · exact hg h.2
  · rw [hv] at h
    rcases h.2.2 with h1 | h1 | h1
    · exact h1 hgi
    · cases h1
      exact absurd hq (by decide)
    · cases h1
  · rw [hv] at h
    rcases h.2.2 with ⟨q', h1, h2⟩ | h1 | h1
    · cases h1
      exact absurd hq (not_lt.2 h2.le)
    · cases h1
    · cases h1

/-- C64, existence: otherwise the annualised cost exists wherever the investment cost does. -/
theorem C64_exists {W : Where.Env} {E : Expr.Env V} {pw : V → V → V} (S : Setting W E pw) (hw : CostInputs W)
    {enum : List String → List String} (henum : Traverses enum)
    {b : Arr (Option V)} (hb : buildExpression W E enum costInvestmentAnnualised = .ok b)
    {ρ : Point} (hρ : Valid W ρ) (hk : (W.input "cost_interest_rate").kind ≠ .boolean)
    (h0 : (W.input "cost_interest_rate").default = .num 0)
    (hr : (W.input "cost_interest_rate").arr.at ρ = .nan ∨
      ∃ q, (W.input "cost_interest_rate").arr.at ρ = .num q ∧ 0 ≤ q) :
    b.at ρ ≠ none ↔ InModel W ["nodes", "techs", "costs"] ρ ∧ Exists W "cost_investment" ρ := by
  rw [(cost_at S hw henum hb hρ).1]
  obtain ⟨i, hi, _⟩ := C64_cases_partial (V := V) hk h0 hr
  exact ⟨fun h => ⟨h.1, h.2.1⟩, fun h => ⟨h.1, h.2, i, hi⟩⟩

/-- With an infinite interest rate and no depreciation rate two cases apply (an infinite value counts as not given, and
it is greater than zero): building the annualised cost fails. -/
theorem C64_infinite {W : Where.Env} {E : Expr.Env V} {pw : V → V → V} (S : Setting W E pw) (hw : CostInputs W)
    {enum : List String → List String} (henum : Traverses enum)
    {ρ : Point} (hρ : Valid W ρ) (hm : InModel W ["nodes", "techs", "costs"] ρ)
    (hx : Exists W "cost_investment" ρ) (hk : (W.input "cost_interest_rate").kind ≠ .boolean)
    (hg : ¬ GivenAt W "cost_depreciation_rate" ρ)
    (hr : (W.input "cost_interest_rate").arr.at ρ = .posInf) (b : Arr (Option V)) :
    buildExpression W E enum costInvestmentAnnualised ≠ .ok b := by
  intro hb
  have h := (cost_at S hw henum hb hρ).2.1 hm hx 1 2
  have hv : valueOf (W.input "cost_interest_rate") ρ = .posInf := by
    unfold valueOf
    rw [hr, if_neg (by simp)]
  have hng : ¬ GivenAt W "cost_interest_rate" ρ := by
    rintro (⟨h1, _⟩ | ⟨_, _, h1, _⟩)
    · exact hk h1
    · exact h1 hr
  have := h (inCase_iff.2 (.inr (.inl ⟨rfl, hg, .inl hng⟩)))
    (inCase_iff.2 (.inr (.inr ⟨rfl, hg, .inr (.inr hv)⟩)))
  cases this

/-! ### From interest to no interest -/

open Filter Topology in
/-- C64, continuity: as the interest rate goes to zero the annuity goes to the straight-line rate that is used for
zero. -/
theorem C64_limit {L : ℝ} (hL : L ≠ 0) :
    Tendsto (fun r : ℝ => r * (1 + r) ^ L / ((1 + r) ^ L - 1)) (𝓝[≠] 0) (𝓝 (1 / L)) := by
  have hd : HasDerivAt (fun r : ℝ => (1 + r) ^ L) L 0 := by
    have h1 : HasDerivAt (fun r : ℝ => 1 + r) 1 0 := by
      simpa using (hasDerivAt_id (0 : ℝ)).const_add 1
    have h2 := h1.rpow_const (p := L) (Or.inl (by norm_num))
    simpa using h2
  have hs : Tendsto (fun r : ℝ => r⁻¹ * ((1 + r) ^ L - 1)) (𝓝[≠] 0) (𝓝 L) := by
    have := hasDerivAt_iff_tendsto_slope.1 hd
    refine this.congr ?_
    intro r
    simp [slope, vsub_eq_sub]
  have hc : Tendsto (fun r : ℝ => (1 + r) ^ L) (𝓝[≠] 0) (𝓝 1) := by
    have := hd.continuousAt.tendsto.mono_left (nhdsWithin_le_nhds (s := {0}ᶜ))
    simpa using this
  have := hc.mul (hs.inv₀ hL)
  rw [one_mul, ← one_div] at this
  refine this.congr ?_
  intro r
  rw [mul_inv, inv_inv, div_eq_mul_inv]
  ring

end BaseMath
end Calliope
