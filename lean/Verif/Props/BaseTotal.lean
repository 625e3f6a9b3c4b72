import Mathlib.Tactic.Ring
import Mathlib.Tactic.NormNum
import Verif.Proofs.BaseMath
import Verif.Spec.BaseTotal
import Verif.Props.BaseBalance

/-!
# C65: total generation
-/

namespace Calliope
namespace BaseMath

open Grid Infix Expr Expand Build Where

variable {V : Type} [Field V]

/-- The expression of `total_generation`. -/
def generated : Ex V :=
  .sum (bin (.comp "flow_out") .plus (bin (.comp "flow_export") .times (.comp "timestep_weights")))
      ["nodes", "timesteps"]

/-- What total generation is: outflow, not weighted, and weighted export. -/
theorem C65_value {W : Where.Env} {E : Expr.Env V} {pw : V → V → V} (S : Setting W E pw) (G : Generation E)
    (hc : W.coords "timesteps" ≠ [] ∧ W.coords "nodes" ≠ [])
    {enum : List String → List String} (henum : Traverses enum)
    {b : Arr (Option V)} (hb : buildExpression W E enum totalGeneration = .ok b) {ρ : Point} (hρ : Valid W ρ) :
    (b.at ρ ≠ none ↔ Generates W ρ) ∧
    (Generates W ρ → b.at ρ = some (total2 E (fun σ => G.out σ + G.exp σ * G.weight σ) ρ)) := by
  have hes := parse_single henum "total_generation" ["techs", "carriers"]
    (both (built "flow_out") (no (isText "base_tech" "demand"))) (.arith (generated (V := V)))
    (by simp [findSubs, under, generated, subRefs, bin, subRefsRest])
    (by simp [findSlices, under, generated, sliceRefs, bin, sliceRefsRest])
  obtain ⟨h1, _, h3⟩ := C71_expression S.wf S.coords (by simp [totalGeneration, single]) hb hes hρ
  have happ : ∀ e : Equation V Cond, e.wheres = [always] → (Applies W totalGeneration ρ e ↔ Generates W ρ) := by
    intro e he
    unfold Applies Generates
    simp only [he, totalGeneration, single, List.mem_singleton, forall_eq, truth_always, truth_both, truth_no,
      truth_isText, truth_built]
    constructor
    · rintro ⟨a, ⟨σ, h1, h2, h3, h4, h5⟩, _⟩
      exact ⟨a, σ, h1, h2, h3, h4, h5⟩
    · rintro ⟨a, σ, h1, h2, h3, h4, h5⟩
      exact ⟨a, ⟨σ, h1, h2, h3, h4, h5⟩, σ, h1, h2, trivial⟩
  have hiff : b.at ρ ≠ none ↔ Generates W ρ := by
    rw [ne_eq, h1]
    simp only [List.mem_singleton, forall_eq, not_not]
    exact happ _ rfl
  refine ⟨hiff, ?_⟩
  intro hg
  obtain ⟨t, ht, hs⟩ := h3 _ (List.mem_singleton.2 rfl) ((happ _ rfl).2 hg)
  cases ht
  have := (hs (simple_plain _ _ _ (by
    simp [generated, Ok, OkRest, Apart, ApartRest, bin, totalGeneration, single]))).1
  rw [this, value_plain]
  unfold plain generated
  rw [mean_sum_exprs (f := fun σ => G.out σ + G.exp σ * G.weight σ), points_two]
  · rfl
  · intro σ
    simp only [mean_bin, mean_comp G.isOut, mean_comp G.isExp, mean_comp G.isWeight, S.numbers.times, S.numbers.plus]
  · obtain ⟨c, hc1, _, hd⟩ := G.isOut
    obtain ⟨c', hc1', _, hd'⟩ := G.isExp
    rcases hd with hd | hd
    · left
      intro d hdm
      simp only [bin, mean, meanRest, hc1, Fn.mask, List.append_nil, List.mem_append]
      exact .inl (hd _ hdm)
    · rcases hd' with hd' | hd'
      · left
        intro d hdm
        simp only [bin, mean, meanRest, hc1, hc1', Fn.mask, List.append_nil, List.mem_append]
        exact .inr (.inl (hd' _ hdm))
      · right
        intro σ
        simp [hd, hd']
  · simp
  · simp [S.coords, hc]

/-- C65, where it holds: with weights of one and without export, total generation is the outflow of the period the
model stands for.  Missing: other weights and technologies that export, for which it is false (`C65_error`). -/
theorem C65_unweighted_partial {W : Where.Env} {E : Expr.Env V} {pw : V → V → V} (S : Setting W E pw)
    (G : Generation E) (hc : W.coords "timesteps" ≠ [] ∧ W.coords "nodes" ≠ [])
    {enum : List String → List String} (henum : Traverses enum)
    {b : Arr (Option V)} (hb : buildExpression W E enum totalGeneration = .ok b) {ρ : Point} (hρ : Valid W ρ)
    (hg : Generates W ρ) (hw : ∀ σ, G.weight σ = 1) (he : ∀ σ, G.exp σ = 0) :
    b.at ρ = some (G.represented ρ) := by
  rw [(C65_value S G hc henum hb hρ).2 hg]
  unfold Generation.represented
  congr 2
  funext σ
  rw [hw, he]
  ring

theorem total2_add (E : Expr.Env V) (f g : Point → V) (ρ : Point) :
    total2 E (fun σ => f σ + g σ) ρ = total2 E f ρ + total2 E g ρ := by
  unfold total2
  rw [← sumOver_add]
  congr 1
  funext σ
  rw [← sumOver_add]

/-- How far total generation is from the outflow of the period the model stands for: outflow is not weighted, and
export, which is a part of outflow, is counted again. -/
theorem C65_error {W : Where.Env} {E : Expr.Env V} {pw : V → V → V} (S : Setting W E pw)
    (G : Generation E) (hc : W.coords "timesteps" ≠ [] ∧ W.coords "nodes" ≠ [])
    {enum : List String → List String} (henum : Traverses enum)
    {b : Arr (Option V)} (hb : buildExpression W E enum totalGeneration = .ok b) {ρ : Point} (hρ : Valid W ρ)
    (hg : Generates W ρ) :
    b.at ρ = some (G.represented ρ +
      (total2 E (fun σ => G.out σ * (1 - G.weight σ)) ρ + total2 E (fun σ => G.exp σ * G.weight σ) ρ)) := by
  rw [(C65_value S G hc henum hb hρ).2 hg]
  unfold Generation.represented
  rw [← total2_add, ← total2_add]
  congr 2
  funext σ
  ring

end BaseMath
end Calliope
