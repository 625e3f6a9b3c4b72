import Mathlib.Tactic.FieldSimp
import Verif.Proofs.Postprocess
import Verif.Props.Supply
import Verif.Props.Costs

/-!
# C86: postprocessed results

What the capacity factors, levelised costs and curtailments are that a solved model reports, and between which limits
they are.
-/

namespace Calliope
namespace BaseMath

open Grid Infix Expr Expand Build Where

variable {V : Type}

section
variable [Field V] [LinearOrder V] [IsStrictOrderedRing V] {W : Where.Env} {E : Expr.Env V} {pw : V → V → V}
  {enum : List String → List String} {b : Arr (Option V)} {c : Arr (Option (Cell V))} {ρ : Point}

omit [IsStrictOrderedRing V] in
theorem Plant.isOutflow (P : Plant W E) : Is E "flow_out" ["nodes", "techs", "carriers", "timesteps"] P.out :=
  P.isOut.decision.is

omit [IsStrictOrderedRing V] in
theorem Plant.isUse (P : Plant W E) : Is E "source_use" ["nodes", "techs", "timesteps"] P.source :=
  P.isSource.decision.is

section
variable (S : Setting W E pw) (henum : Traverses enum) (P : Plant W E)
include S henum

/-- C86, capacity factor: it is given exactly for outflows of technologies with a capacity, and is the outflow divided by
what the capacity gives in the time step. -/
theorem C86_capacity_factor (hsee : Seen W "flow_cap" ["nodes", "techs", "carriers"] P.cap)
    (hh : ∀ ρ, Valid W ρ → 0 < P.hours ρ) (hb : buildExpression W E enum capacityFactor = .ok b) (hρ : Valid W ρ) :
    (b.at ρ ≠ none ↔ InModel W ["nodes", "techs", "carriers", "timesteps"] ρ ∧ Exists W "flow_out" ρ ∧
      Exists W "flow_cap" ρ ∧ 0 < P.cap ρ) ∧
    (b.at ρ ≠ none → b.at ρ = some (P.out ρ / (P.cap ρ * P.hours ρ))) := by
  have hl : Local W ["nodes", "techs", "carriers", "timesteps"] (both (built "flow_out") (.atom (.cmp (.result
      "flow_cap") .gt (.num 0)))) := by
    refine ⟨P.isOut.decision.within, ?_⟩
    intro a ha d hd
    exact (by decide : ∀ d ∈ ["nodes", "techs", "carriers"], d ∈ ["nodes", "techs", "carriers", "timesteps"]) d
      (hsee.within a ha d hd)
  obtain ⟨h1, h2⟩ := single_expr S.wf S.coords henum (by simp) hb hρ (by plain_sides) (by plain_sides)
  have hpr : Present W ["nodes", "techs", "carriers", "timesteps"] (both (built "flow_out") (.atom (.cmp (.result
      "flow_cap") .gt (.num 0)))) ρ ↔ InModel W ["nodes", "techs", "carriers", "timesteps"] ρ ∧ Exists W "flow_out" ρ ∧
      Exists W "flow_cap" ρ ∧ 0 < P.cap ρ := by
    rw [present_local hl, truth_both, truth_built', truth_above_zero, hsee.positive ρ hρ]
  refine ⟨h1.trans hpr, fun hne => ?_⟩
  have hp := h1.1 hne
  obtain ⟨_, _, _, hc⟩ := hpr.1 hp
  rw [h2 hp, plain_val, val_bin, val_bin, val_comp, val_comp, val_comp, P.isOutflow.at, P.decisionCap.is.at,
    P.isHours.at, S.numbers.times, S.numbers.div _ _ (mul_ne_zero hc.ne' (hh ρ hρ).ne')]

/-- C86, capacity factor: in any solution it is between zero and one. -/
theorem C86_fraction (hsee : Seen W "flow_cap" ["nodes", "techs", "carriers"] P.cap)
    (hh : ∀ ρ, Valid W ρ → 0 < P.hours ρ) (hb : buildExpression W E enum capacityFactor = .ok b) (hρ : Valid W ρ)
    (hc : buildConstraint W E enum flowOutMax = .ok c) (hs : Satisfied c ρ) (hpar : P.parasitic ρ ≤ 1)
    {x : V} (hx : b.at ρ = some x) : 0 ≤ x ∧ x ≤ 1 := by
  obtain ⟨h1, h2⟩ := C86_capacity_factor S henum P hsee hh hb hρ
  have hne : b.at ρ ≠ none := by rw [hx]; simp
  obtain ⟨_, _, _, hcap⟩ := h1.1 hne
  have hv := h2 hne
  rw [hx] at hv
  obtain rfl := Option.some.inj hv
  obtain ⟨g1, g2⟩ := C78_outflow S henum P hc hρ hs
  have hpos : 0 < P.cap ρ * P.hours ρ := mul_pos hcap (hh ρ hρ)
  exact ⟨div_nonneg g1 hpos.le, (div_le_one hpos).2 (g2.trans (mul_le_of_le_one_right hpos.le hpar))⟩

omit [IsStrictOrderedRing V] S henum in
theorem valid_set (hρ : Valid W ρ) {d : String} {l : Label} (hl : l ∈ W.coords d) : Valid W (set ρ d l) := by
  intro e
  unfold Expr.set
  by_cases h : e = d
  · subst h; rw [if_pos rfl]; exact hl
  · rw [if_neg h]; exact hρ e

/-- What the capacity factor of a technology in the whole system is given for. -/
def Runs (W : Where.Env) (cap : Point → V) (ρ : Point) : Prop :=
  (∀ d ∈ ["techs", "carriers"], d ∈ W.matrix.dims ∨ d ∈ W.dims) ∧
  ∃ σ, Valid W σ ∧ SameAlong ["techs", "carriers"] ρ σ ∧ W.matrix.at σ = true ∧ Exists W "flow_out" σ ∧
    Exists W "flow_cap" σ ∧ 0 < cap σ

omit [Field V] [IsStrictOrderedRing V] [LinearOrder V] S henum in
theorem same_set_node {cap : Point → V} (hcap : VariesAlong ["nodes", "techs", "carriers"] cap) {ρ σ : Point}
    (h : SameAlong ["techs", "carriers"] ρ σ) : cap (set ρ "nodes" (σ "nodes")) = cap σ := by
  refine hcap _ _ ?_
  intro d hd
  simp only [List.mem_cons, List.not_mem_nil, or_false] at hd
  unfold Expr.set
  rcases hd with rfl | rfl | rfl
  · simp
  · simpa using (h "techs" (by simp)).symm
  · simpa using (h "carriers" (by simp)).symm

omit S henum in
theorem capacity_pos (hS : E.coords = W.coords) (hcap : VariesAlong ["nodes", "techs", "carriers"] P.cap)
    (hρ : Valid W ρ) (hr : Runs W P.cap ρ) : 0 < sumOver E "nodes" P.cap ρ := by
  obtain ⟨_, σ, hσ, hsame, _, _, _, hpos⟩ := hr
  refine sumOver_pos_of (l := σ "nodes") ?_ (by rw [hS]; exact hσ _) ?_
  · intro l hl
    rw [hS] at hl
    exact P.capNonneg _ (valid_set hρ hl)
  · rw [same_set_node hcap hsame]
    exact hpos

/-- C86, capacity factor in the whole system: given for a technology and carrier with a capacity at some node; it is the
outflow at all nodes in the period that the model stands for, divided by what the capacities of all nodes give in that
period. -/
theorem C86_systemwide (hsee : Seen W "flow_cap" ["nodes", "techs", "carriers"] P.cap)
    (hcap : VariesAlong ["nodes", "techs", "carriers"] P.cap) {weight : Point → V} (K : Clock W E P.hours weight)
    (hb : buildExpression W E enum systemwideCapacityFactor = .ok b) (hρ : Valid W ρ) :
    (b.at ρ ≠ none ↔ Runs W P.cap ρ) ∧
    (b.at ρ ≠ none → b.at ρ = some (total2 E (fun σ => P.out σ * weight σ) ρ /
      (sumOver E "nodes" P.cap ρ * sumOver E "timesteps" (fun σ => P.hours σ * weight σ) ρ))) := by
  obtain ⟨h1, h2⟩ := single_expr S.wf S.coords henum (by simp) hb hρ (by plain_sides) (by plain_sides)
  have hpr : Present W ["techs", "carriers"] (both (built "flow_out") (.atom (.cmp (.result
      "flow_cap") .gt (.num 0)))) ρ ↔ Runs W P.cap ρ := by
    constructor
    · rintro ⟨a, σ, g1, g2, g3, g4⟩
      rw [truth_both, truth_built', truth_above_zero, hsee.positive σ g1] at g4
      exact ⟨a, σ, g1, g2, g3, g4⟩
    · rintro ⟨a, σ, g1, g2, g3, g4⟩
      refine ⟨a, σ, g1, g2, g3, ?_⟩
      rw [truth_both, truth_built', truth_above_zero, hsee.positive σ g1]
      exact g4
  refine ⟨h1.trans hpr, fun hne => ?_⟩
  have hp := h1.1 hne
  have hcapPos := capacity_pos P S.coords hcap hρ (hpr.1 hp)
  have hc := coords_of_valid S.coords hρ
  have htime : 0 < sumOver E "timesteps" (fun σ => P.hours σ * weight σ) ρ := by
    refine sumOver_pos (fun l hl => ?_) (hc _)
    rw [S.coords] at hl
    exact mul_pos (K.hoursPos _ (valid_set hρ hl)) (K.weightPos _ (valid_set hρ hl))
  have e1 := (den_sum2 (sl := fun n => List.lookup n []) (es := []) (d := "nodes") (e := "timesteps") (by simp)
    (den_times_left S.numbers (den_comp P.isOutflow) (den_comp K.isWeight)) (by simp)
    (by simp) (hc _) (hc _) (by simp)).1 ρ
  have e2 := (den_sum (sl := fun n => List.lookup n []) (es := []) (d := "nodes") (den_comp P.decisionCap.is) (by simp)
    (hc _) (by simp)).1 ρ
  have e3 := (den_sum (sl := fun n => List.lookup n []) (es := []) (d := "timesteps")
    (den_times_left S.numbers (den_comp K.isHours) (den_comp K.isWeight)) (by simp) (hc _) (by simp)).1 ρ
  rw [h2 hp, plain_val, val_bin, val_bin]
  erw [e1, e2, e3]
  rw [S.numbers.times, S.numbers.div _ _ (mul_pos hcapPos htime).ne']
  rfl

/-- C86, capacity factor in the whole system: in any solution it is between zero and one. -/
theorem C86_systemwide_fraction (hsee : Seen W "flow_cap" ["nodes", "techs", "carriers"] P.cap)
    (hcap : VariesAlong ["nodes", "techs", "carriers"] P.cap) {weight : Point → V} (K : Clock W E P.hours weight)
    (hb : buildExpression W E enum systemwideCapacityFactor = .ok b) (hρ : Valid W ρ)
    (hc : buildConstraint W E enum flowOutMax = .ok c) (hs : ∀ σ, Valid W σ → Satisfied c σ)
    (hpar : ∀ σ, Valid W σ → P.parasitic σ ≤ 1) {x : V} (hx : b.at ρ = some x) : 0 ≤ x ∧ x ≤ 1 := by
  obtain ⟨h1, h2⟩ := C86_systemwide S henum P hsee hcap K hb hρ
  have hne : b.at ρ ≠ none := by rw [hx]; simp
  have hv := h2 hne
  rw [hx] at hv
  obtain rfl := Option.some.inj hv
  have hcapPos := capacity_pos P S.coords hcap hρ (h1.1 hne)
  have hco := coords_of_valid S.coords hρ
  have htime : 0 < sumOver E "timesteps" (fun σ => P.hours σ * weight σ) ρ := by
    refine sumOver_pos (fun l hl => ?_) (hco _)
    rw [S.coords] at hl
    exact mul_pos (K.hoursPos _ (valid_set hρ hl)) (K.weightPos _ (valid_set hρ hl))
  have hpos := mul_pos hcapPos htime
  have hval : ∀ l ∈ E.coords "nodes", ∀ m ∈ E.coords "timesteps", Valid W (set (set ρ "nodes" l) "timesteps" m) := by
    intro l hl m hm
    rw [S.coords] at hl hm
    exact valid_set (valid_set hρ hl) hm
  refine ⟨div_nonneg ?_ hpos.le, (div_le_one hpos).2 ?_⟩
  · refine sumOver_nonneg fun l hl => sumOver_nonneg fun m hm => ?_
    exact mul_nonneg (C78_outflow S henum P hc (hval l hl m hm) (hs _ (hval l hl m hm))).1
      (K.weightPos _ (hval l hl m hm)).le
  · have hstep : ∀ l ∈ E.coords "nodes", sumOver E "timesteps" (fun σ => P.out σ * weight σ) (set ρ "nodes" l) ≤
        sumOver E "timesteps" (fun σ => P.hours σ * weight σ) ρ * P.cap (set ρ "nodes" l) := by
      intro l hl
      have hsc : sumOver E "timesteps" (fun σ => P.hours σ * weight σ) ρ * P.cap (set ρ "nodes" l) =
          sumOver E "timesteps" (fun σ => P.cap (set ρ "nodes" l) * (P.hours σ * weight σ)) (set ρ "nodes" l) := by
        rw [sumOver_scale, mul_comm]
        congr 1
        unfold sumOver
        refine congrArg List.sum (List.map_congr_left ?_)
        intro m hm
        have h1 : SameAlong ["timesteps"] (set ρ "timesteps" m) (set (set ρ "nodes" l) "timesteps" m) := by
          intro d hd
          rw [List.mem_singleton] at hd
          subst hd
          simp [Expr.set]
        simp only [K.hoursOnly _ _ h1, K.weightOnly _ _ h1]
      rw [hsc]
      refine sumOver_le fun m hm => ?_
      have hv := hval l hl m hm
      obtain ⟨_, g2⟩ := C78_outflow S henum P hc hv (hs _ hv)
      have hsame : P.cap (set (set ρ "nodes" l) "timesteps" m) = P.cap (set ρ "nodes" l) := by
        refine hcap _ _ fun d hd => ?_
        simp only [List.mem_cons, List.not_mem_nil, or_false] at hd
        rcases hd with rfl | rfl | rfl <;> simp [Expr.set]
      rw [hsame] at g2
      have hcn : 0 ≤ P.cap (set ρ "nodes" l) := by rw [← hsame]; exact P.capNonneg _ hv
      have g3 := g2.trans (mul_le_of_le_one_right (mul_nonneg hcn (K.hoursPos _ hv).le) (hpar _ hv))
      calc P.out (set (set ρ "nodes" l) "timesteps" m) * weight (set (set ρ "nodes" l) "timesteps" m)
          ≤ P.cap (set ρ "nodes" l) * P.hours (set (set ρ "nodes" l) "timesteps" m) *
            weight (set (set ρ "nodes" l) "timesteps" m) :=
            mul_le_mul_of_nonneg_right g3 (K.weightPos _ hv).le
        _ = _ := mul_assoc ..
    refine (sumOver_le (g := fun σ => sumOver E "timesteps" (fun σ => P.hours σ * weight σ) ρ * P.cap σ) hstep).trans ?_
    rw [sumOver_scale, mul_comm]

end

section
variable (S : Setting W E pw) (henum : Traverses enum) (A : Accounts W E)
include S henum

/-- C86, levelised cost of a technology: it is given where the technology generates the carrier and has costs, and times
the generation it is the cost at all nodes. -/
theorem C86_levelised (hb : buildExpression W E enum systemwideLevelisedCost = .ok b) (hρ : Valid W ρ) :
    (b.at ρ ≠ none ↔ InModel W ["techs", "carriers", "costs"] ρ ∧ Exists W "total_generation" ρ ∧ 0 < A.generation ρ ∧
      ∃ l ∈ W.coords "nodes", Exists W "cost" (set ρ "nodes" l)) ∧
    ∀ x, b.at ρ = some x → x * A.generation ρ = sumOver E "nodes" A.cost ρ := by
  have hl : Local W ["techs", "carriers", "costs"] (both (.atom (.cmp (.result "total_generation")
      .gt (.num 0))) (.atom (.anyResult "cost" ["nodes"]))) := by
    refine ⟨?_, ?_⟩
    · intro a ha d hd
      exact (by decide : ∀ d ∈ ["techs", "carriers"], d ∈ ["techs", "carriers", "costs"]) d (A.seen.within a ha d hd)
    · intro a ha d hd
      exact (by decide : ∀ d ∈ ["nodes", "techs", "costs"], d ∈ ["techs", "carriers", "costs"] ∨ d ∈ ["nodes"]) d
        (A.within a ha d hd)
  obtain ⟨h1, h2⟩ := single_expr S.wf S.coords henum (by simp) hb hρ (by plain_sides) (by plain_sides)
  have hany : Truth W ρ (.atom (.anyResult "cost" ["nodes"])) ↔
      ∃ l ∈ W.coords "nodes", Exists W "cost" (set ρ "nodes" l) := by
    simp only [Truth, LeafTruth]
    constructor
    · rintro ⟨a, ha, σ, hσ, ht⟩
      by_cases hd : "nodes" ∈ a.dims
      · refine ⟨σ "nodes", hσ.2 _ (List.mem_filter.2 ⟨hd, by simp⟩), a, ha, ?_⟩
        rw [← ht]
        refine at_congr _ fun d hdm => ?_
        unfold Expr.set
        by_cases hn : d = "nodes"
        · subst hn; simp
        · rw [if_neg hn, hσ.1 d (fun hm => hn (by simpa using (List.mem_filter.1 hm).2))]
      · refine ⟨ρ "nodes", hρ _, a, ha, ?_⟩
        rw [← ht]
        refine at_congr _ fun d hdm => ?_
        rw [show set ρ "nodes" (ρ "nodes") = ρ from Expr.set_self ..]
        exact (hσ.1 d (fun hm => hd (by
          have := (List.mem_filter.1 hm).2
          simp only [List.contains_eq_mem, List.mem_singleton, decide_eq_true_eq] at this
          exact this ▸ hdm))).symm
    · rintro ⟨l, hl, a, ha, ht⟩
      refine ⟨a, ha, fun d => if d ∈ a.dims.filter (fun d => ["nodes"].contains d) then set ρ "nodes" l d else ρ d,
        ⟨fun d hd => by simp only [if_neg hd], fun d hd => ?_⟩, ?_⟩
      · have := (List.mem_filter.1 hd).2
        simp only [List.contains_eq_mem, List.mem_singleton, decide_eq_true_eq] at this
        simp only [if_pos hd]
        subst this
        simpa [Expr.set] using hl
      · rw [← ht]
        refine at_congr _ fun d hdm => ?_
        by_cases hn : d = "nodes"
        · rw [if_pos (List.mem_filter.2 ⟨hdm, by simp [hn]⟩)]
        · rw [if_neg (fun hm => hn (by simpa using (List.mem_filter.1 hm).2))]
          unfold Expr.set
          rw [if_neg hn]
  have hpr : Present W ["techs", "carriers", "costs"] (both (.atom (.cmp (.result "total_generation")
      .gt (.num 0))) (.atom (.anyResult "cost" ["nodes"]))) ρ ↔ InModel W ["techs", "carriers", "costs"] ρ ∧
        Exists W "total_generation" ρ ∧ 0 < A.generation ρ ∧
        ∃ l ∈ W.coords "nodes", Exists W "cost" (set ρ "nodes" l) := by
    rw [present_local hl, truth_both, truth_above_zero, A.seen.positive ρ hρ, hany, and_assoc]
  refine ⟨h1.trans hpr, fun x hx => ?_⟩
  have hp := h1.1 (by rw [hx]; simp)
  obtain ⟨_, _, hg, _⟩ := hpr.1 hp
  have hv := h2 hp
  have e1 := (den_sum (sl := fun n => List.lookup n []) (es := []) (d := "nodes") (den_comp A.isCost) (by simp)
    (coords_of_valid S.coords hρ _) (by simp)).1 ρ
  rw [hx, plain_val, val_bin, e1, val_comp, A.isGeneration.at, S.numbers.div _ _ hg.ne'] at hv
  obtain rfl := Option.some.inj hv
  exact div_mul_cancel₀ _ hg.ne'

/-- The levelised costs of a technology with several carriers count its costs once for each carrier. -/
theorem C86_levelised_again (hb : buildExpression W E enum systemwideLevelisedCost = .ok b) {ρ' : Point}
    (hρ : Valid W ρ) (hρ' : Valid W ρ') (hcost : VariesAlong ["nodes", "techs", "costs"] A.cost)
    (hsame : SameAlong ["techs", "costs"] ρ ρ') {x y : V} (hx : b.at ρ = some x) (hy : b.at ρ' = some y) :
    x * A.generation ρ + y * A.generation ρ' = 2 * sumOver E "nodes" A.cost ρ := by
  rw [(C86_levelised S henum A hb hρ).2 x hx, (C86_levelised S henum A hb hρ').2 y hy]
  have : sumOver E "nodes" A.cost ρ' = sumOver E "nodes" A.cost ρ := by
    unfold sumOver
    refine congrArg List.sum (List.map_congr_left fun l _ => hcost _ _ fun d hd => ?_)
    simp only [List.mem_cons, List.not_mem_nil, or_false] at hd
    rcases hd with rfl | rfl | rfl
    · simp [Expr.set]
    · simpa [Expr.set] using hsame "techs" (by simp)
    · simpa [Expr.set] using hsame "costs" (by simp)
  rw [this, two_mul]

/-- C86, levelised cost of a carrier: it is given where the carrier is generated, and times the generation of all
technologies it is the cost of all technologies, whatever carriers they generate. -/
theorem C86_total_levelised (hsum : SeenTotal W E "total_generation" "techs" ["carriers"] A.generation)
    (hb : buildExpression W E enum totalLevelisedCost = .ok b) (hρ : Valid W ρ) :
    (b.at ρ ≠ none ↔ InModel W ["carriers", "costs"] ρ ∧ 0 < sumOver E "techs" A.generation ρ) ∧
    ∀ x, b.at ρ = some x →
      x * sumOver E "techs" A.generation ρ = sumOver E "nodes" (sumOver E "techs" A.cost) ρ := by
  have hl : Local W ["carriers", "costs"] (.atom (.cmp (.total "total_generation" ["techs"]) .gt (.num 0))) := by
    intro a ha d hd
    exact (by decide : ∀ d ∈ ["carriers"], d ∈ ["carriers", "costs"]) d (hsum.within a ha d hd)
  obtain ⟨h1, h2⟩ := single_expr S.wf S.coords henum (by simp) hb hρ (by plain_sides) (by plain_sides)
  have hpr : Present W ["carriers", "costs"] (.atom (.cmp (.total "total_generation" ["techs"]) .gt (.num 0))) ρ ↔
      InModel W ["carriers", "costs"] ρ ∧ 0 < sumOver E "techs" A.generation ρ := by
    rw [present_local hl, truth_total, hsum.positive ρ hρ]
  refine ⟨h1.trans hpr, fun x hx => ?_⟩
  have hp := h1.1 (by rw [hx]; simp)
  obtain ⟨_, hg⟩ := hpr.1 hp
  have hc := coords_of_valid S.coords hρ
  have hv := h2 hp
  have e1 := (den_sum2 (sl := fun n => List.lookup n []) (es := []) (d := "nodes") (e := "techs") (by simp)
    (den_comp A.isCost) (by simp) (by simp) (hc _) (hc _) (by simp)).1 ρ
  have e2 := (den_sum (sl := fun n => List.lookup n []) (es := []) (d := "techs") (den_comp A.isGeneration) (by simp)
    (hc _) (by simp)).1 ρ
  rw [hx, plain_val, val_bin, e1, e2, S.numbers.div _ _ hg.ne'] at hv
  obtain rfl := Option.some.inj hv
  exact div_mul_cancel₀ _ hg.ne'

/-- The levelised costs of the carriers count the costs of the whole system once for each carrier. -/
theorem C86_total_again (hsum : SeenTotal W E "total_generation" "techs" ["carriers"] A.generation)
    (hb : buildExpression W E enum totalLevelisedCost = .ok b) {ρ' : Point}
    (hρ : Valid W ρ) (hρ' : Valid W ρ') (hcost : VariesAlong ["nodes", "techs", "costs"] A.cost)
    (hsame : SameAlong ["costs"] ρ ρ') {x y : V} (hx : b.at ρ = some x) (hy : b.at ρ' = some y) :
    x * sumOver E "techs" A.generation ρ + y * sumOver E "techs" A.generation ρ' =
      2 * sumOver E "nodes" (sumOver E "techs" A.cost) ρ := by
  rw [(C86_total_levelised S henum A hsum hb hρ).2 x hx, (C86_total_levelised S henum A hsum hb hρ').2 y hy]
  have : sumOver E "nodes" (sumOver E "techs" A.cost) ρ' = sumOver E "nodes" (sumOver E "techs" A.cost) ρ := by
    unfold sumOver
    refine congrArg List.sum (List.map_congr_left fun l _ => congrArg List.sum (List.map_congr_left fun m _ =>
      hcost _ _ fun d hd => ?_))
    simp only [List.mem_cons, List.not_mem_nil, or_false] at hd
    rcases hd with rfl | rfl | rfl
    · simp [Expr.set]
    · simp [Expr.set]
    · simpa [Expr.set] using hsame "costs" (by simp)
  rw [this, two_mul]

end

section
variable (S : Setting W E pw) (henum : Traverses enum) (P : Plant W E) (N : Needs W E)
include S henum

/-- C86, unmet demand: the sum of what is missing and what is too much (which is counted negative). -/
theorem C86_unmet {unmet unused : Point → V} (h1 : Is E "unmet_demand" [] unmet) (h2 : Is E "unused_supply" [] unused)
    (hb : buildExpression W E enum unmetSum = .ok b) (hρ : Valid W ρ) {x : V} (hx : b.at ρ = some x) :
    x = unmet ρ + unused ρ := by
  obtain ⟨g1, g2⟩ := single_expr S.wf S.coords henum (by simp) hb hρ (by plain_sides) (by plain_sides)
  have hv := g2 (g1.1 (by rw [hx]; simp))
  rw [hx, plain_val, val_bin, val_comp, val_comp, h1.at, h2.at, S.numbers.plus] at hv
  exact Option.some.inj hv

/-- C86, curtailment: given for supply technologies with a limited source and a capacity to use it; it is the part of
the source that is not used. -/
theorem C86_curtailment (hsee : Seen W "source_cap" ["nodes", "techs"] P.sourceCap)
    (hmax : SeenInput W "source_use_max" N.sourceMax) (hb : buildExpression W E enum curtailment = .ok b)
    (hρ : Valid W ρ) (hu : UnitKnown W "source_unit" ρ) (h0 : scaleOf W E "source_unit" N.area P.cap ρ ≠ 0) :
    (b.at ρ ≠ none ↔ InModel W ["nodes", "techs", "timesteps"] ρ ∧ HasSource W P.sourceCap ρ ∧
      valueOf (W.input "source_use_max") ρ ≠ .posInf ∧ 0 < N.sourceMax ρ) ∧
    ∀ x, b.at ρ = some x →
      x = 1 - P.source ρ / (N.sourceMax ρ * scaleOf W E "source_unit" N.area P.cap ρ) := by
  have hmx : ∀ d ∈ (W.input "source_use_max").arr.dims, d ∈ ["nodes", "techs", "timesteps"] :=
    N.sourceWithin _ (by simp)
  have hloc : LocalCases W (curtailment (V := V)) := by
    refine scaler_local (s := "source_scaler") (unit := "source_unit") rfl rfl ?_ (N.sourceWithin _ (by simp))
    intro p hp
    simp only [curtailment, List.mem_singleton] at hp
    subst hp
    trivial
  have hl : Local W ["nodes", "techs", "timesteps"] (curtailment (V := V)).top := by
    refine ⟨fun d hd => (by decide : ∀ d ∈ ["nodes", "techs"], d ∈ ["nodes", "techs", "timesteps"]) d
      (N.kindWithin _ (by simp) d hd), hmx, hmx, ?_⟩
    intro a ha d hd
    exact (by decide : ∀ d ∈ ["nodes", "techs"], d ∈ ["nodes", "techs", "timesteps"]) d (hsee.within a ha d hd)
  obtain ⟨v, u, hvu, htr, hok, hap, hsl, hden, _⟩ := scaler_pick S hρ hu N.isArea P.capIs
  obtain ⟨g1, g2⟩ := scaled_expr S henum (c := curtailment) (s := "source_scaler") (unit := "source_unit")
    (by simp [curtailment]) (by rfl) hb rfl rfl hloc hρ
    (by simp [findSubs, under, bin, subRefs, subRefsRest]) (by simp [bodySlices, under, bin, sliceRefs, sliceRefsRest])
    hvu htr hsl
    (by simpa [Expr.inline, Expr.inlineRest, bin, Ok, OkRest, List.lookup] using hok)
    (by simpa [Expr.inline, Expr.inlineRest, bin, Apart, ApartRest, List.lookup] using hap _)
  have hpr : Present W (curtailment (V := V)).foreach (curtailment (V := V)).top ρ ↔
      InModel W ["nodes", "techs", "timesteps"] ρ ∧ HasSource W P.sourceCap ρ ∧
        valueOf (W.input "source_use_max") ρ ≠ .posInf ∧ 0 < N.sourceMax ρ := by
    rw [show Present W (curtailment (V := V)).foreach (curtailment (V := V)).top ρ ↔
      InModel W ["nodes", "techs", "timesteps"] ρ ∧ Truth W ρ (curtailment (V := V)).top from present_local hl]
    refine and_congr_right fun _ => ?_
    unfold curtailment
    rw [Truth, RestTruth, RestTruth, RestTruth]
    simp only [connect]
    rw [truth_isText, truth_above0, truth_no, truth_unlimited, truth_above_zero, hsee.positive ρ hρ]
    constructor
    · rintro ⟨⟨⟨a, b⟩, c⟩, d, e⟩
      exact ⟨⟨a, d, e⟩, c, (hmax ρ hρ c).1 b⟩
    · rintro ⟨⟨a, d, e⟩, c, b⟩
      exact ⟨⟨⟨a, (hmax ρ hρ c).2 b⟩, c⟩, d, e⟩
  refine ⟨g1.trans hpr, fun x hx => ?_⟩
  have hp := g1.1 (by rw [hx]; simp)
  obtain ⟨_, _, _, hm⟩ := hpr.1 hp
  have hv := g2 hp
  rw [hx, inline_bin, inline_bin, inline_bin, val_bin, val_bin, val_bin] at hv
  simp only [Expr.inline, lookup_hit, Option.getD_some] at hv
  rw [val_comp, val_comp, val_num, (hden _).1, P.isUse.at, N.isSourceMax.at, S.numbers.times,
    scaleFor_self, S.numbers.div _ _ (mul_ne_zero hm.ne' h0), S.numbers.minus] at hv
  exact Option.some.inj hv

/-- C86, curtailment, where it holds: in any solution it is between zero and one.  Missing: technologies that must use
an amount that is given, where it is false (`C86_curtailment_given`). -/
theorem C86_curtailed_partial (hsee : Seen W "source_cap" ["nodes", "techs"] P.sourceCap)
    (hmax : SeenInput W "source_use_max" N.sourceMax) (hb : buildExpression W E enum curtailment = .ok b)
    (hρ : Valid W ρ) (hu : UnitKnown W "source_unit" ρ) (h0 : 0 < scaleOf W E "source_unit" N.area P.cap ρ)
    (hc : buildConstraint W E enum sourceAvailabilitySupply = .ok c) (hs : Satisfied c ρ)
    (hex : Exists W "source_use" ρ) (he : ¬ GivenAt W "source_use_equals" ρ) (hg : GivenAt W "source_use_max" ρ)
    {x : V} (hx : b.at ρ = some x) : 0 ≤ x ∧ x ≤ 1 := by
  obtain ⟨g1, g2⟩ := C86_curtailment S henum P N hsee hmax hb hρ hu h0.ne'
  obtain ⟨hin, _, _, hm⟩ := g1.1 (by rw [hx]; simp)
  have hle := ((C84_source S henum P N hc hρ hin hex hu).1 hs).2 he hg
  rw [g2 x hx]
  have hpos := mul_pos hm h0
  have h1 : P.source ρ / (N.sourceMax ρ * scaleOf W E "source_unit" N.area P.cap ρ) ≤ 1 := (div_le_one hpos).2 hle
  have h2 : 0 ≤ P.source ρ / (N.sourceMax ρ * scaleOf W E "source_unit" N.area P.cap ρ) :=
    div_nonneg (P.isSource.nonneg' rfl hρ) hpos.le
  constructor <;> linarith

/-- Where the amount to use is given, the limit is not one: curtailment compares the amount with the limit, and is
negative where the amount is more. -/
theorem C86_curtailment_given (hsee : Seen W "source_cap" ["nodes", "techs"] P.sourceCap)
    (hmax : SeenInput W "source_use_max" N.sourceMax) (hb : buildExpression W E enum curtailment = .ok b)
    (hρ : Valid W ρ) (hu : UnitKnown W "source_unit" ρ) (h0 : 0 < scaleOf W E "source_unit" N.area P.cap ρ)
    (hc : buildConstraint W E enum sourceAvailabilitySupply = .ok c) (hs : Satisfied c ρ)
    (hex : Exists W "source_use" ρ) (he : GivenAt W "source_use_equals" ρ)
    {x : V} (hx : b.at ρ = some x) :
    x = 1 - N.sourceEquals ρ / N.sourceMax ρ ∧ (N.sourceMax ρ < N.sourceEquals ρ → x < 0) := by
  obtain ⟨g1, g2⟩ := C86_curtailment S henum P N hsee hmax hb hρ hu h0.ne'
  obtain ⟨hin, _, _, hm⟩ := g1.1 (by rw [hx]; simp)
  have heq := ((C84_source S henum P N hc hρ hin hex hu).1 hs).1 he
  have hxv : x = 1 - N.sourceEquals ρ / N.sourceMax ρ := by
    rw [g2 x hx, heq, mul_div_mul_right _ _ h0.ne']
  refine ⟨hxv, fun hlt => ?_⟩
  have := (one_lt_div hm).2 hlt
  rw [hxv]
  linarith

theorem total_curtailment_at (hsee : Seen W "source_cap" ["nodes", "techs"] P.sourceCap)
    (hunit : ∀ d ∈ (W.input "source_unit").arr.dims, d ∈ ["nodes", "techs"])
    (hb : buildExpression W E enum totalCurtailment = .ok b)
    (hρ : Valid W ρ) (hu : UnitKnown W "source_unit" ρ) :
    ∃ u : Ex V, (∀ sl, Den E sl u [] (scaleFor W E "source_unit" N.area P.cap ρ)) ∧
      (∀ sl d, Lacks E "area_use" d → Lacks E "flow_cap" d → d ∉ (mean E sl (fun _ => true) [] u).dims) ∧
      (b.at ρ ≠ none ↔ Present W ["nodes", "techs"] (totalCurtailment (V := V)).top ρ) ∧
      (b.at ρ ≠ none → b.at ρ = val E (fun n => List.lookup n []) (bin (.num 1) .minus (bin (.sum (.comp "source_use")
        ["timesteps"]) .div (.sum (bin (.comp "source_use_max") .times u) ["timesteps"]))) ρ) := by
  have hloc : LocalCases W (totalCurtailment (V := V)) := by
    refine scaler_local (s := "source_scaler") (unit := "source_unit") rfl rfl ?_ hunit
    intro p hp
    simp only [totalCurtailment, List.mem_singleton] at hp
    subst hp
    trivial
  obtain ⟨v, u, hvu, htr, hok, hap, hsl, hden, hlack⟩ := scaler_pick S hρ hu N.isArea P.capIs
  obtain ⟨g1, g2⟩ := scaled_expr S henum (c := totalCurtailment) (s := "source_scaler") (unit := "source_unit")
    (by simp [totalCurtailment]) (by rfl) hb rfl rfl hloc hρ
    (by simp [findSubs, under, bin, subRefs, subRefsRest]) (by simp [bodySlices, under, bin, sliceRefs, sliceRefsRest])
    hvu htr hsl
    (by simpa [Expr.inline, Expr.inlineRest, bin, Ok, OkRest, List.lookup] using hok)
    (by simp [Expr.inline, Expr.inlineRest, bin, Apart, ApartRest, List.lookup, totalCurtailment, hap, NoOps])
  refine ⟨u, hden, hlack, g1, fun hne => ?_⟩
  rw [g2 (g1.1 hne), inline_bin, inline_bin]
  simp only [Expr.inline, inline_bin, lookup_hit, Option.getD_some]

/-- What total curtailment is given for. -/
def Limited (W : Where.Env) (sourceCap : Point → V) (ρ : Point) : Prop :=
  (∀ d ∈ ["nodes", "techs"], d ∈ W.matrix.dims ∨ d ∈ W.dims) ∧
  ∃ σ, Valid W σ ∧ SameAlong ["nodes", "techs"] ρ σ ∧ W.matrix.at σ = true ∧ HasSource W sourceCap σ ∧
    GivenAt W "source_use_max" σ

omit [IsStrictOrderedRing V] S henum in
theorem curtailment_present (hsee : Seen W "source_cap" ["nodes", "techs"] P.sourceCap) :
    Present W ["nodes", "techs"] (totalCurtailment (V := V)).top ρ ↔ Limited W P.sourceCap ρ := by
  constructor
  · rintro ⟨a, σ, g1, g2, g3, g4⟩
    unfold totalCurtailment at g4
    rw [Truth, RestTruth, RestTruth] at g4
    simp only [connect] at g4
    rw [truth_isText, truth_given', truth_above_zero, hsee.positive σ g1] at g4
    exact ⟨a, σ, g1, g2, g3, ⟨g4.1.1, g4.2.1, g4.2.2⟩, g4.1.2⟩
  · rintro ⟨a, σ, g1, g2, g3, ⟨h1, h2, h3⟩, h4⟩
    refine ⟨a, σ, g1, g2, g3, ?_⟩
    unfold totalCurtailment
    rw [Truth, RestTruth, RestTruth]
    simp only [connect]
    rw [truth_isText, truth_given', truth_above_zero, hsee.positive σ g1]
    exact ⟨⟨h1, h4⟩, h2, h3⟩

/-- C86, total curtailment of a source that is given for each time step: the part of the source that is not used over
all time steps, each counted once. -/
theorem C86_total_curtailment (hsee : Seen W "source_cap" ["nodes", "techs"] P.sourceCap)
    (hunit : ∀ d ∈ (W.input "source_unit").arr.dims, d ∈ ["nodes", "techs"])
    (hsteps : Is E "source_use_max" ["timesteps"] N.sourceMax)
    (hb : buildExpression W E enum totalCurtailment = .ok b)
    (hρ : Valid W ρ) (hu : UnitKnown W "source_unit" ρ)
    (h0 : sumOver E "timesteps" (fun σ => N.sourceMax σ * scaleOf W E "source_unit" N.area P.cap σ) ρ ≠ 0) :
    (b.at ρ ≠ none ↔ Limited W P.sourceCap ρ) ∧
    ∀ x, b.at ρ = some x → x = 1 - sumOver E "timesteps" P.source ρ /
      sumOver E "timesteps" (fun σ => N.sourceMax σ * scaleOf W E "source_unit" N.area P.cap σ) ρ := by
  obtain ⟨u, hden, _, g1, g2⟩ := total_curtailment_at S henum P N hsee hunit hb hρ hu
  refine ⟨g1.trans (curtailment_present P hsee), fun x hx => ?_⟩
  have hv := g2 (by rw [hx]; simp)
  have hc := coords_of_valid S.coords hρ
  have e1 := (den_sum (sl := fun n => List.lookup n []) (es := []) (d := "timesteps")
    (den_comp P.isUse) (by simp) (hc _) (by simp)).1 ρ
  have e2 := (den_sum (sl := fun n => List.lookup n []) (es := []) (d := "timesteps")
    (den_times_left S.numbers (den_comp hsteps) (hden _)) (by simp) (hc _) (by simp)).1 ρ
  have heq : sumOver E "timesteps" (fun σ => N.sourceMax σ * scaleFor W E "source_unit" N.area P.cap ρ σ) ρ =
      sumOver E "timesteps" (fun σ => N.sourceMax σ * scaleOf W E "source_unit" N.area P.cap σ) ρ := by
    refine sumOver_congr fun l _ => ?_
    congr 1
    rw [← scaleFor_self]
    have ht : ∀ s, Text W "source_unit" s (set ρ "timesteps" l) ↔ Text W "source_unit" s ρ := by
      intro s
      rw [← truth_isText, ← truth_isText]
      refine truth_local (sets := ["nodes", "techs"]) ?_ _ hunit
      intro d hd
      simp only [List.mem_cons, List.not_mem_nil, or_false] at hd
      rcases hd with rfl | rfl <;> simp [Expr.set]
    unfold scaleFor
    simp only [ht]
  rw [heq] at e2
  rw [hx, val_bin, val_bin, e1, e2, val_num, S.numbers.div _ _ h0, S.numbers.minus] at hv
  exact Option.some.inj hv

/-- C86, total curtailment, where it holds: between zero and one in any solution.  Missing: sources that do not change
with time, for which it is false (`C86_constant_source`), and amounts to use that are given. -/
theorem C86_total_curtailed_partial (hsee : Seen W "source_cap" ["nodes", "techs"] P.sourceCap)
    (hunit : ∀ d ∈ (W.input "source_unit").arr.dims, d ∈ ["nodes", "techs"])
    (hsteps : Is E "source_use_max" ["timesteps"] N.sourceMax)
    (hb : buildExpression W E enum totalCurtailment = .ok b)
    (hρ : Valid W ρ) (hu : UnitKnown W "source_unit" ρ)
    (h0 : 0 < sumOver E "timesteps" (fun σ => N.sourceMax σ * scaleOf W E "source_unit" N.area P.cap σ) ρ)
    (hc : buildConstraint W E enum sourceAvailabilitySupply = .ok c)
    (hs : ∀ l ∈ W.coords "timesteps", Satisfied c (set ρ "timesteps" l))
    (hin : ∀ l ∈ W.coords "timesteps", InModel W ["nodes", "techs", "timesteps"] (set ρ "timesteps" l))
    (hex : ∀ l ∈ W.coords "timesteps", Exists W "source_use" (set ρ "timesteps" l))
    (hk : ∀ l ∈ W.coords "timesteps", UnitKnown W "source_unit" (set ρ "timesteps" l))
    (he : ∀ l ∈ W.coords "timesteps", ¬ GivenAt W "source_use_equals" (set ρ "timesteps" l))
    (hg : ∀ l ∈ W.coords "timesteps", GivenAt W "source_use_max" (set ρ "timesteps" l))
    {x : V} (hx : b.at ρ = some x) : 0 ≤ x ∧ x ≤ 1 := by
  rw [(C86_total_curtailment S henum P N hsee hunit hsteps hb hρ hu h0.ne').2 x hx]
  have hle : sumOver E "timesteps" P.source ρ ≤
      sumOver E "timesteps" (fun σ => N.sourceMax σ * scaleOf W E "source_unit" N.area P.cap σ) ρ := by
    refine sumOver_le fun l hl => ?_
    rw [S.coords] at hl
    exact ((C84_source S henum P N hc (valid_set hρ hl) (hin l hl) (hex l hl) (hk l hl)).1 (hs l hl)).2 (he l hl) (hg l hl)
  have hnn : 0 ≤ sumOver E "timesteps" P.source ρ := by
    refine sumOver_nonneg fun l hl => ?_
    rw [S.coords] at hl
    exact P.isSource.nonneg' rfl (valid_set hρ hl)
  have h1 := (div_le_one h0).2 hle
  have h2 := div_nonneg hnn h0.le
  constructor <;> linarith

/-- Total curtailment of a source that does not change with time compares what is used in all time steps with what there
is in one; a source that is used fully in each of `n` time steps has a total curtailment of `1 - n`. -/
theorem C86_constant_source (hsee : Seen W "source_cap" ["nodes", "techs"] P.sourceCap)
    (hunit : ∀ d ∈ (W.input "source_unit").arr.dims, d ∈ ["nodes", "techs"])
    (hconst : Lacks E "source_use_max" "timesteps") (ha : Lacks E "area_use" "timesteps")
    (hf : Lacks E "flow_cap" "timesteps") (hb : buildExpression W E enum totalCurtailment = .ok b)
    (hρ : Valid W ρ) (hu : UnitKnown W "source_unit" ρ)
    (h0 : N.sourceMax ρ * scaleOf W E "source_unit" N.area P.cap ρ ≠ 0) {x : V} (hx : b.at ρ = some x) :
    x = 1 - sumOver E "timesteps" P.source ρ / (N.sourceMax ρ * scaleOf W E "source_unit" N.area P.cap ρ) ∧
    ((∀ l ∈ W.coords "timesteps", P.source (set ρ "timesteps" l) =
        N.sourceMax ρ * scaleOf W E "source_unit" N.area P.cap ρ) → x = 1 - ((W.coords "timesteps").length : V)) := by
  obtain ⟨u, hden, hlack, g1, g2⟩ := total_curtailment_at S henum P N hsee hunit hb hρ hu
  have hv := g2 (by rw [hx]; simp)
  have hc := coords_of_valid S.coords hρ
  have e1 := (den_sum (sl := fun n => List.lookup n []) (es := []) (d := "timesteps")
    (den_comp P.isUse) (by simp) (hc _) (by simp)).1 ρ
  have e2 : val E (fun n => List.lookup n []) (.sum (bin (.comp "source_use_max") .times u) ["timesteps"]) ρ =
      some (N.sourceMax ρ * scaleOf W E "source_unit" N.area P.cap ρ) := by
    refine val_sum_lacks ?_ ?_
    · rw [bin_dims, List.mem_append, not_or]
      refine ⟨?_, hlack _ _ ha hf⟩
      intro hm
      simp only [mean] at hm
      cases hcm : E.comp "source_use_max" with
      | none => rw [hcm] at hm; simp at hm
      | some k => rw [hcm] at hm; exact hconst k hcm hm
    · rw [val_bin, val_comp, N.isSourceMax.at, (hden _).1, S.numbers.times, scaleFor_self]
  rw [hx, val_bin, val_bin, e1, e2, val_num, S.numbers.div _ _ h0, S.numbers.minus] at hv
  have hxv := Option.some.inj hv
  refine ⟨hxv, fun hall => ?_⟩
  have hsum : sumOver E "timesteps" P.source ρ =
      ((W.coords "timesteps").length : V) * (N.sourceMax ρ * scaleOf W E "source_unit" N.area P.cap ρ) := by
    unfold sumOver
    rw [S.coords, List.map_congr_left hall, List.map_const', List.sum_replicate, nsmul_eq_mul]
  rw [hxv, hsum, mul_div_cancel_right₀ _ h0]

end

end

end BaseMath
end Calliope
