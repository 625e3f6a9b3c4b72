import Mathlib.Tactic.Ring
import Mathlib.Tactic.Linarith
import Mathlib.Tactic.LinearCombination
import Mathlib.Algebra.Order.Field.Basic
import Mathlib.Algebra.Order.BigOperators.Group.List
import Verif.Proofs.BaseMath
import Verif.Spec.BaseBalance

/-!
# C63: the carrier balance of the whole system
-/

namespace Calliope
namespace BaseMath

open Grid Infix Expr Expand Build Where

variable {V : Type} [Field V]

/-- C63: the balance of a carrier is built at every node of the model with the carrier and every time step. -/
theorem C63_balance {W : Where.Env} {E : Expr.Env V} {pw : V → V → V} (S : Setting W E pw) (D : Flows E)
    {enum : List String → List String} (henum : Traverses enum)
    {b : Arr (Option (Cell V))} (hb : buildConstraint W E enum systemBalance = .ok b)
    {ρ : Point} (hρ : Valid W ρ) :
    (b.at ρ ≠ none ↔ InModel W ["nodes", "carriers", "timesteps"] ρ) ∧
    (b.at ρ ≠ none → b.at ρ = some ⟨some (sumOver E "techs" D.out ρ - sumOver E "techs" D.inn ρ -
      sumOver E "techs" D.exp ρ + (D.unmet ρ + D.unused ρ)), "==", some 0⟩) := by
  have hc : E.coords "techs" ≠ [] := by
    rw [S.coords]
    exact List.ne_nil_of_mem (hρ "techs")
  obtain ⟨h1, h2⟩ := single_at S.wf henum (by simp) hb
    (by simp [subRefs, subRefsRest, bin]) (by simp [sliceRefs, sliceRefsRest, bin])
    (by simp [Ok, OkRest, Apart, ApartRest, bin]) (by simp [Ok, Apart]) hρ (by simp)
  refine ⟨by rw [h1]; simp, ?_⟩
  intro hne
  rw [h2 hne]
  have e1 := mean_sum_one (slices := fun n => List.lookup n []) S.wf D.isOut (by simp) hc ρ
  have e2 := mean_sum_one (slices := fun n => List.lookup n []) S.wf D.isInn (by simp) hc ρ
  have e3 := mean_sum_one (slices := fun n => List.lookup n []) S.wf D.isExp (by simp) hc ρ
  have e4 := mean_comp (slices := fun n => List.lookup n []) D.isUnmet ρ
  have e5 := mean_comp (slices := fun n => List.lookup n []) D.isUnused ρ
  have e6 := mean_bin (E := E) (slices := fun n => List.lookup n []) (.comp "unmet_demand") (.comp "unused_supply")
    .plus ρ
  rw [e4, e5, S.numbers.plus] at e6
  unfold plain
  congr 2
  rw [mean, meanRest, meanRest, meanRest]
  simp only [mask_true, e1, e2, e3, e6, S.numbers.plus, S.numbers.minus]

section sums
variable {E : Expr.Env V}

theorem sumOver_add (d : String) (f g : Point → V) (ρ : Point) :
    sumOver E d (fun σ => f σ + g σ) ρ = sumOver E d f ρ + sumOver E d g ρ := by
  unfold sumOver
  induction E.coords d with
  | nil => simp
  | cons a l ih =>
    simp only [List.map_cons, List.sum_cons, ih]
    ring

theorem sumOver_sub (d : String) (f g : Point → V) (ρ : Point) :
    sumOver E d (fun σ => f σ - g σ) ρ = sumOver E d f ρ - sumOver E d g ρ := by
  unfold sumOver
  induction E.coords d with
  | nil => simp
  | cons a l ih =>
    simp only [List.map_cons, List.sum_cons, ih]
    ring

theorem sumOver_congr {d : String} {f g : Point → V} {ρ : Point}
    (h : ∀ l ∈ E.coords d, f (set ρ d l) = g (set ρ d l)) : sumOver E d f ρ = sumOver E d g ρ := by
  unfold sumOver
  rw [List.map_congr_left h]

theorem sumOver_zero {d : String} {f : Point → V} {ρ : Point}
    (h : ∀ l ∈ E.coords d, f (set ρ d l) = 0) : sumOver E d f ρ = 0 := by
  rw [sumOver_congr (g := fun _ => 0) h]
  unfold sumOver
  simp

end sums

theorem everywhere_add {E : Expr.Env V} (f g : Point → V) (ρ : Point) :
    everywhere E (fun σ => f σ + g σ) ρ = everywhere E f ρ + everywhere E g ρ := by
  unfold everywhere
  rw [← sumOver_add]
  congr 1
  funext σ
  rw [← sumOver_add]
  congr 1
  funext τ
  rw [← sumOver_add]

theorem everywhere_sub {E : Expr.Env V} (f g : Point → V) (ρ : Point) :
    everywhere E (fun σ => f σ - g σ) ρ = everywhere E f ρ - everywhere E g ρ := by
  unfold everywhere
  rw [← sumOver_sub]
  congr 1
  funext σ
  rw [← sumOver_sub]
  congr 1
  funext τ
  rw [← sumOver_sub]

theorem everywhere_congr {E : Expr.Env V} {f g : Point → V} {ρ : Point} (h : ∀ σ, f σ = g σ) :
    everywhere E f ρ = everywhere E g ρ := by
  rw [show f = g from funext h]

/-- The balance holds at every node and for every carrier, whether or not it is built there. -/
theorem balanced [LE V] {W : Where.Env} {E : Expr.Env V} {pw : V → V → V} (S : Setting W E pw) (D : Flows E)
    {enum : List String → List String} (henum : Traverses enum)
    {b : Arr (Option (Cell V))} (hb : buildConstraint W E enum systemBalance = .ok b)
    (hfl : ∀ f ∈ [D.out, D.inn, D.exp], Only W ["nodes", "techs", "carriers", "timesteps"] f)
    (hun : ∀ f ∈ [D.unmet, D.unused], Only W ["nodes", "carriers", "timesteps"] f)
    {ρ : Point} (hρ : Valid W ρ) (hsol : Satisfied b ρ) :
    sumOver E "techs" D.out ρ - sumOver E "techs" D.inn ρ - sumOver E "techs" D.exp ρ +
      (D.unmet ρ + D.unused ρ) = 0 := by
  obtain ⟨h1, h2⟩ := C63_balance S D henum hb hρ
  by_cases hin : InModel W ["nodes", "carriers", "timesteps"] ρ
  · exact (hsol _ _).1 (h2 (h1.2 hin))
  · have hz : ∀ f ∈ [D.out, D.inn, D.exp], sumOver E "techs" f ρ = 0 := by
      intro f hf
      apply sumOver_zero
      intro l _
      by_contra hne
      obtain ⟨hk, σ, hv, hs, hm⟩ := hfl f hf _ hne
      refine hin ⟨fun d hd => hk d (by simp at hd ⊢; tauto), σ, hv, ?_, hm⟩
      intro d hd
      have := hs d (by simp at hd ⊢; tauto)
      rw [this]
      unfold Expr.set
      rw [if_neg]
      rintro rfl
      simp at hd
    have hu : ∀ f ∈ [D.unmet, D.unused], f ρ = 0 := by
      intro f hf
      by_contra hne
      exact hin (hun f hf ρ hne)
    rw [hz _ (by simp), hz _ (by simp), hz _ (by simp), hu D.unmet (by simp), hu D.unused (by simp)]
    simp

/-- C63: at every time step, over all nodes and carriers, supply plus unmet demand is demand plus exports, unused
supply, and what transmission, conversion and storage take in and do not give out. -/
theorem C63_system [LE V] {W : Where.Env} {E : Expr.Env V} {pw : V → V → V} (S : Setting W E pw) (D : Flows E)
    {enum : List String → List String} (henum : Traverses enum)
    {b : Arr (Option (Cell V))} (hb : buildConstraint W E enum systemBalance = .ok b)
    (hfl : ∀ f ∈ [D.out, D.inn, D.exp], Only W ["nodes", "techs", "carriers", "timesteps"] f)
    (hun : ∀ f ∈ [D.unmet, D.unused], Only W ["nodes", "carriers", "timesteps"] f)
    (hkind : ∀ ρ, Text W "base_tech" "supply" ρ ∨ Text W "base_tech" "demand" ρ ∨
      Text W "base_tech" "transmission" ρ ∨ Text W "base_tech" "conversion" ρ ∨ Text W "base_tech" "storage" ρ)
    (hsup : ∀ ρ, Text W "base_tech" "supply" ρ → D.inn ρ = 0)
    (hdem : ∀ ρ, Text W "base_tech" "demand" ρ → D.out ρ = 0)
    (hsol : ∀ ρ, Valid W ρ → Satisfied b ρ) {ρ : Point} (hρ : Valid W ρ) :
    everywhere E (ofKind W "supply" D.out) ρ + sumOver E "nodes" (sumOver E "carriers" D.unmet) ρ =
      everywhere E (ofKind W "demand" D.inn) ρ + everywhere E D.exp ρ -
        sumOver E "nodes" (sumOver E "carriers" D.unused) ρ +
      (everywhere E (ofKind W "transmission" D.inn) ρ - everywhere E (ofKind W "transmission" D.out) ρ) +
      (everywhere E (ofKind W "conversion" D.inn) ρ - everywhere E (ofKind W "conversion" D.out) ρ) +
      (everywhere E (ofKind W "storage" D.inn) ρ - everywhere E (ofKind W "storage" D.out) ρ) := by
  have htot : everywhere E D.out ρ - everywhere E D.inn ρ - everywhere E D.exp ρ +
      (sumOver E "nodes" (sumOver E "carriers" D.unmet) ρ + sumOver E "nodes" (sumOver E "carriers" D.unused) ρ) = 0 := by
    unfold everywhere
    rw [← sumOver_sub, ← sumOver_sub, ← sumOver_add, ← sumOver_add]
    apply sumOver_zero
    intro n hn
    rw [← sumOver_sub, ← sumOver_sub, ← sumOver_add, ← sumOver_add]
    apply sumOver_zero
    intro c hc
    have hv : Valid W (set (set ρ "nodes" n) "carriers" c) := by
      rw [S.coords] at hn hc
      intro d
      unfold Expr.set
      split
      · rename_i h; rw [h]; exact hc
      · split
        · rename_i h; rw [h]; exact hn
        · exact hρ d
    exact balanced S D henum hb hfl hun hv (hsol _ hv)
  have hout : everywhere E D.out ρ = everywhere E (ofKind W "supply" D.out) ρ +
      everywhere E (ofKind W "transmission" D.out) ρ + everywhere E (ofKind W "conversion" D.out) ρ +
      everywhere E (ofKind W "storage" D.out) ρ := by
    rw [← everywhere_add, ← everywhere_add, ← everywhere_add]
    apply everywhere_congr
    intro σ
    unfold ofKind
    rcases hkind σ with h | h | h | h | h
    · unfold Text at h
      simp [Text, h]
    · rw [hdem σ h]
      simp
    all_goals
      unfold Text at h
      simp [Text, h]
  have hinn : everywhere E D.inn ρ = everywhere E (ofKind W "demand" D.inn) ρ +
      everywhere E (ofKind W "transmission" D.inn) ρ + everywhere E (ofKind W "conversion" D.inn) ρ +
      everywhere E (ofKind W "storage" D.inn) ρ := by
    rw [← everywhere_add, ← everywhere_add, ← everywhere_add]
    apply everywhere_congr
    intro σ
    unfold ofKind
    rcases hkind σ with h | h | h | h | h
    · rw [hsup σ h]
      simp
    all_goals
      unfold Text at h
      simp [Text, h]
  rw [hout, hinn] at htot
  linear_combination htot

theorem parse_flowOutIncEff {enum : List String → List String} (henum : Traverses enum) :
    parseEquations enum (flowOutIncEff (V := V)).defn = .ok (flowOutIncEff.defn.equations.zipIdx.map
      (fun p => ⟨[("flow_out_inc_eff", p.2)], [p.1.1], p.1.2, [], []⟩)) := by
  simp only [flowOutIncEff, parseEquations, initial, List.zipIdx_cons, List.zipIdx_nil, List.map_cons, List.map_nil,
    extendAll, findSubs, subRefs, subRefsRest, List.append_nil, List.nil_append, under,
    extend, findSlices, sliceRefs, sliceRefsRest, bin, bin3, enum_nil henum, List.flatMap_nil, List.cons_append]

theorem parse_flowInIncEff {enum : List String → List String} (henum : Traverses enum) :
    parseEquations enum (flowInIncEff (V := V)).defn = .ok (flowInIncEff.defn.equations.zipIdx.map
      (fun p => ⟨[("flow_in_inc_eff", p.2)], [p.1.1], p.1.2, [], []⟩)) := by
  simp only [flowInIncEff, parseEquations, initial, List.zipIdx_cons, List.zipIdx_nil, List.map_cons, List.map_nil,
    extendAll, findSubs, subRefs, subRefsRest, List.append_nil, List.nil_append, under,
    extend, findSlices, sliceRefs, sliceRefsRest, bin, bin3, enum_nil henum, List.flatMap_nil, List.cons_append]

omit [Field V] in
theorem built_same {W : Where.Env} {sets : List String} {ρ σ : Point} (h : SameAlong sets ρ σ) {n : String}
    (hd : ResultWithin W sets n) : Exists W n σ ↔ Exists W n ρ := by
  unfold Exists
  constructor
  · rintro ⟨a, ha, ht⟩
    exact ⟨a, ha, by rw [at_congr a (fun d hdd => (h d (hd a ha d hdd)).symm)]; exact ht⟩
  · rintro ⟨a, ha, ht⟩
    exact ⟨a, ha, by rw [at_congr a (fun d hdd => h d (hd a ha d hdd))]; exact ht⟩

theorem outflow_at {W : Where.Env} {E : Expr.Env V} {pw : V → V → V} (S : Setting W E pw) {ds : List String}
    {out : Point → V} (hI : Is E "flow_out" ds out) (F : Efficiencies E) {enum : List String → List String} (henum : Traverses enum)
    {b : Arr (Option V)} (hb : buildExpression W E enum flowOutIncEff = .ok b)
    (hw : Within W ["nodes", "techs", "carriers", "timesteps"] ["base_tech"])
    (hr : ResultWithin W ["nodes", "techs", "carriers", "timesteps"] "flow_out")
    {ρ : Point} (hρ : Valid W ρ) :
    (b.at ρ ≠ none ↔ InModel W ["nodes", "techs", "carriers", "timesteps"] ρ ∧ Exists W "flow_out" ρ) ∧
    (b.at ρ ≠ none → F.giving W pw ρ ≠ 0 → b.at ρ = some (out ρ / F.giving W pw ρ)) := by
  have hes := parse_flowOutIncEff (V := V) henum
  have htx : ∀ σ, SameAlong ["nodes", "techs", "carriers", "timesteps"] ρ σ →
      (Text W "base_tech" "transmission" σ ↔ Text W "base_tech" "transmission" ρ) :=
    fun σ hs => text_same hs (hw _ (by simp))
  have hbt : ∀ σ, SameAlong ["nodes", "techs", "carriers", "timesteps"] ρ σ →
      (Exists W "flow_out" σ ↔ Exists W "flow_out" ρ) := fun σ hs => built_same hs hr
  have htop : ∀ σ, Truth W σ (flowOutIncEff (V := V)).top ↔ Exists W "flow_out" σ := by
    intro σ
    simp only [flowOutIncEff]
    exact truth_built "flow_out" σ
  obtain ⟨h1, h2⟩ := expression_at S.wf S.coords (by simp [flowOutIncEff]) hb hes hρ (by
    intro σ hs
    refine ⟨by rw [htop, htop]; exact hbt σ hs, ?_⟩
    intro e he w hwm
    simp only [flowOutIncEff, List.zipIdx_cons, List.zipIdx_nil, List.map_cons, List.map_nil, List.mem_cons,
      List.not_mem_nil, or_false] at he
    rcases he with rfl | rfl <;> simp only [List.mem_singleton] at hwm <;> subst hwm <;>
      simp only [truth_no, truth_isText, htx σ hs])
  have hiff : b.at ρ ≠ none ↔
      InModel W ["nodes", "techs", "carriers", "timesteps"] ρ ∧ Exists W "flow_out" ρ := by
    rw [h1, htop]
    constructor
    · rintro ⟨g1, g2, _⟩
      exact ⟨g1, g2⟩
    · rintro ⟨g1, g2⟩
      refine ⟨g1, g2, ?_⟩
      by_cases ht : Text W "base_tech" "transmission" ρ
      · exact ⟨_, List.mem_cons_self .., by simpa [truth_isText] using ht⟩
      · exact ⟨_, List.mem_cons_of_mem _ (List.mem_cons_self ..), by simpa [truth_isText] using ht⟩
  refine ⟨hiff, ?_⟩
  intro hne hz
  obtain ⟨g1, g2⟩ := hiff.1 hne
  unfold Efficiencies.giving at hz ⊢
  by_cases ht : Text W "base_tech" "transmission" ρ
  · rw [if_pos ht] at hz ⊢
    rw [h2 _ (List.mem_cons_self ..) g1 ((htop ρ).2 g2) (by simpa [truth_isText] using ht) _ rfl
      (simple_plain _ _ _ (by simp [Ok, OkRest, Apart, ApartRest, bin, bin3])), value_plain, plain, mean_bin, mean_bin3,
      mean_bin, mean_comp hI, mean_comp F.isOut, mean_comp F.isParasitic, mean_comp F.isOutPerDistance,
      mean_comp F.isDistance, S.numbers.pow, S.numbers.times, S.numbers.times, S.numbers.div _ _ hz]
  · rw [if_neg ht] at hz ⊢
    rw [h2 _ (List.mem_cons_of_mem _ (List.mem_cons_self ..)) g1 ((htop ρ).2 g2) (by simpa [truth_isText] using ht) _ rfl
      (simple_plain _ _ _ (by simp [Ok, OkRest, Apart, ApartRest, bin])), value_plain, plain, mean_bin,
      mean_bin, mean_comp hI, mean_comp F.isOut, mean_comp F.isParasitic,
      S.numbers.times, S.numbers.div _ _ hz]

/-- C63: the outflow including losses is the outflow over the efficiencies. -/
theorem C63_outflow {W : Where.Env} {E : Expr.Env V} {pw : V → V → V} (S : Setting W E pw) (D : Flows E)
    (F : Efficiencies E) {enum : List String → List String} (henum : Traverses enum)
    {b : Arr (Option V)} (hb : buildExpression W E enum flowOutIncEff = .ok b)
    (hw : Within W ["nodes", "techs", "carriers", "timesteps"] ["base_tech"])
    (hr : ResultWithin W ["nodes", "techs", "carriers", "timesteps"] "flow_out")
    {ρ : Point} (hρ : Valid W ρ) :
    (b.at ρ ≠ none ↔ InModel W ["nodes", "techs", "carriers", "timesteps"] ρ ∧ Exists W "flow_out" ρ) ∧
    (b.at ρ ≠ none → F.giving W pw ρ ≠ 0 → b.at ρ = some (D.out ρ / F.giving W pw ρ)) :=
  outflow_at S D.isOut F henum hb hw hr hρ

theorem inflow_at {W : Where.Env} {E : Expr.Env V} {pw : V → V → V} (S : Setting W E pw) {ds : List String}
    {inn : Point → V} (hI : Is E "flow_in" ds inn) (F : Efficiencies E) {enum : List String → List String} (henum : Traverses enum)
    {b : Arr (Option V)} (hb : buildExpression W E enum flowInIncEff = .ok b)
    (hw : Within W ["nodes", "techs", "carriers", "timesteps"] ["base_tech"])
    (hr : ResultWithin W ["nodes", "techs", "carriers", "timesteps"] "flow_in")
    {ρ : Point} (hρ : Valid W ρ) :
    (b.at ρ ≠ none ↔ InModel W ["nodes", "techs", "carriers", "timesteps"] ρ ∧ Exists W "flow_in" ρ) ∧
    (b.at ρ ≠ none → b.at ρ = some (inn ρ * F.taking W pw ρ)) := by
  have hes := parse_flowInIncEff (V := V) henum
  have htx : ∀ σ, SameAlong ["nodes", "techs", "carriers", "timesteps"] ρ σ →
      (Text W "base_tech" "transmission" σ ↔ Text W "base_tech" "transmission" ρ) :=
    fun σ hs => text_same hs (hw _ (by simp))
  have hbt : ∀ σ, SameAlong ["nodes", "techs", "carriers", "timesteps"] ρ σ →
      (Exists W "flow_in" σ ↔ Exists W "flow_in" ρ) := fun σ hs => built_same hs hr
  have htop : ∀ σ, Truth W σ (flowInIncEff (V := V)).top ↔ Exists W "flow_in" σ := by
    intro σ
    simp only [flowInIncEff]
    exact truth_built "flow_in" σ
  obtain ⟨h1, h2⟩ := expression_at S.wf S.coords (by simp [flowInIncEff]) hb hes hρ (by
    intro σ hs
    refine ⟨by rw [htop, htop]; exact hbt σ hs, ?_⟩
    intro e he w hwm
    simp only [flowInIncEff, List.zipIdx_cons, List.zipIdx_nil, List.map_cons, List.map_nil, List.mem_cons,
      List.not_mem_nil, or_false] at he
    rcases he with rfl | rfl <;> simp only [List.mem_singleton] at hwm <;> subst hwm <;>
      simp only [truth_no, truth_isText, htx σ hs])
  have hiff : b.at ρ ≠ none ↔
      InModel W ["nodes", "techs", "carriers", "timesteps"] ρ ∧ Exists W "flow_in" ρ := by
    rw [h1, htop]
    constructor
    · rintro ⟨g1, g2, _⟩
      exact ⟨g1, g2⟩
    · rintro ⟨g1, g2⟩
      refine ⟨g1, g2, ?_⟩
      by_cases ht : Text W "base_tech" "transmission" ρ
      · exact ⟨_, List.mem_cons_self .., by simpa [truth_isText] using ht⟩
      · exact ⟨_, List.mem_cons_of_mem _ (List.mem_cons_self ..), by simpa [truth_isText] using ht⟩
  refine ⟨hiff, ?_⟩
  intro hne
  obtain ⟨g1, g2⟩ := hiff.1 hne
  unfold Efficiencies.taking
  by_cases ht : Text W "base_tech" "transmission" ρ
  · rw [if_pos ht]
    rw [h2 _ (List.mem_cons_self ..) g1 ((htop ρ).2 g2) (by simpa [truth_isText] using ht) _ rfl
      (simple_plain _ _ _ (by simp [Ok, OkRest, Apart, ApartRest, bin, bin3])), value_plain, plain, mean_bin3,
      mean_bin, mean_comp hI, mean_comp F.isInn, mean_comp F.isInnPerDistance,
      mean_comp F.isDistance, S.numbers.pow, S.numbers.times, S.numbers.times, mul_assoc]
  · rw [if_neg ht]
    rw [h2 _ (List.mem_cons_of_mem _ (List.mem_cons_self ..)) g1 ((htop ρ).2 g2) (by simpa [truth_isText] using ht) _ rfl
      (simple_plain _ _ _ (by simp [Ok, OkRest, Apart, ApartRest, bin])), value_plain, plain, mean_bin,
      mean_comp hI, mean_comp F.isInn, S.numbers.times]

/-- C63: the inflow after losses is the inflow times the efficiencies. -/
theorem C63_inflow {W : Where.Env} {E : Expr.Env V} {pw : V → V → V} (S : Setting W E pw) (D : Flows E)
    (F : Efficiencies E) {enum : List String → List String} (henum : Traverses enum)
    {b : Arr (Option V)} (hb : buildExpression W E enum flowInIncEff = .ok b)
    (hw : Within W ["nodes", "techs", "carriers", "timesteps"] ["base_tech"])
    (hr : ResultWithin W ["nodes", "techs", "carriers", "timesteps"] "flow_in")
    {ρ : Point} (hρ : Valid W ρ) :
    (b.at ρ ≠ none ↔ InModel W ["nodes", "techs", "carriers", "timesteps"] ρ ∧ Exists W "flow_in" ρ) ∧
    (b.at ρ ≠ none → b.at ρ = some (D.inn ρ * F.taking W pw ρ)) :=
  inflow_at S D.isInn F henum hb hw hr hρ

/-! ### Losses -/

section ordered
variable [LinearOrder V] [IsStrictOrderedRing V]

theorem sumOver_nonneg {E : Expr.Env V} {d : String} {f : Point → V} {ρ : Point}
    (h : ∀ l ∈ E.coords d, 0 ≤ f (set ρ d l)) : 0 ≤ sumOver E d f ρ := by
  unfold sumOver
  apply List.sum_nonneg
  intro x hx
  obtain ⟨l, hl, rfl⟩ := List.mem_map.1 hx
  exact h l hl

/-- Powers of efficiencies are efficiencies. -/
def Shrinks (pw : V → V → V) : Prop := ∀ a d, 0 < a → a ≤ 1 → 0 ≤ d → 0 < pw a d ∧ pw a d ≤ 1

omit [IsStrictOrderedRing V] in
/-- All efficiencies are positive and at most one. -/
def Proper {E : Expr.Env V} (F : Efficiencies E) : Prop :=
  ∀ ρ, (∀ f ∈ [F.out, F.parasitic, F.outPerDistance, F.inn, F.innPerDistance], 0 < f ρ ∧ f ρ ≤ 1) ∧ 0 ≤ F.distance ρ

theorem giving_proper {E : Expr.Env V} {F : Efficiencies E} (hF : Proper F) {pw : V → V → V} (hp : Shrinks pw)
    (W : Where.Env) (ρ : Point) : 0 < F.giving W pw ρ ∧ F.giving W pw ρ ≤ 1 := by
  obtain ⟨h, hd⟩ := hF ρ
  obtain ⟨a1, a2⟩ := h F.out (by simp)
  obtain ⟨b1, b2⟩ := h F.parasitic (by simp)
  obtain ⟨c1, c2⟩ := h F.outPerDistance (by simp)
  obtain ⟨d1, d2⟩ := hp _ _ c1 c2 hd
  have e1 : 0 < F.out ρ * F.parasitic ρ := mul_pos a1 b1
  have e2 : F.out ρ * F.parasitic ρ ≤ 1 := mul_le_one₀ a2 b1.le b2
  unfold Efficiencies.giving
  split
  · exact ⟨mul_pos e1 d1, mul_le_one₀ e2 d1.le d2⟩
  · exact ⟨e1, e2⟩

theorem taking_proper {E : Expr.Env V} {F : Efficiencies E} (hF : Proper F) {pw : V → V → V} (hp : Shrinks pw)
    (W : Where.Env) (ρ : Point) : 0 < F.taking W pw ρ ∧ F.taking W pw ρ ≤ 1 := by
  obtain ⟨h, hd⟩ := hF ρ
  obtain ⟨a1, a2⟩ := h F.inn (by simp)
  obtain ⟨c1, c2⟩ := h F.innPerDistance (by simp)
  obtain ⟨d1, d2⟩ := hp _ _ c1 c2 hd
  unfold Efficiencies.taking
  split
  · exact ⟨mul_pos a1 d1, mul_le_one₀ a2 d1.le d2⟩
  · exact ⟨a1, a2⟩

/-- The parts of a model that the losses depend on, as built. -/
structure Lossy (W : Where.Env) (E : Expr.Env V) (pw : V → V → V) (enum : List String → List String)
    (D : Flows E) (F : Efficiencies E) where
  outInc : Point → V
  innInc : Point → V
  bo : Arr (Option V)
  bi : Arr (Option V)
  buildOut : buildExpression W E enum flowOutIncEff = .ok bo
  buildInn : buildExpression W E enum flowInIncEff = .ok bi
  holdsOut : Holds W E "flow_out_inc_eff" ["nodes", "carriers"] bo outInc
  holdsInn : Holds W E "flow_in_inc_eff" ["nodes", "carriers"] bi innInc
  kinds : Within W ["techs"] ["base_tech"]
  resOut : ResultWithin W ["nodes", "techs", "carriers", "timesteps"] "flow_out"
  resInn : ResultWithin W ["nodes", "techs", "carriers", "timesteps"] "flow_in"
  onlyOut : ∀ ρ, D.out ρ ≠ 0 → InModel W ["nodes", "techs", "carriers", "timesteps"] ρ ∧ Exists W "flow_out" ρ
  onlyInn : ∀ ρ, D.inn ρ ≠ 0 → InModel W ["nodes", "techs", "carriers", "timesteps"] ρ ∧ Exists W "flow_in" ρ
  outNonneg : ∀ ρ, 0 ≤ D.out ρ
  innNonneg : ∀ ρ, 0 ≤ D.inn ρ
  proper : Proper F
  shrinks : Shrinks pw

theorem out_le {W : Where.Env} {E : Expr.Env V} {pw : V → V → V} (S : Setting W E pw) {D : Flows E}
    {F : Efficiencies E} {enum : List String → List String} (henum : Traverses enum) (L : Lossy W E pw enum D F)
    {ρ : Point} (hρ : Valid W ρ) : D.out ρ ≤ L.outInc ρ := by
  obtain ⟨h1, h2⟩ := C63_outflow S D F henum L.buildOut (by
    intro n hn d hd
    have := L.kinds n hn d hd
    simp at this ⊢
    tauto) L.resOut hρ
  obtain ⟨g1, g2⟩ := giving_proper L.proper L.shrinks W ρ
  rw [L.holdsOut.2 ρ hρ]
  by_cases hb : L.bo.at ρ = none
  · rw [hb]
    have : D.out ρ = 0 := by
      by_contra hne
      exact h1.2 (L.onlyOut ρ hne) hb
    simp [this]
  · rw [h2 hb g1.ne']
    simp only [Option.getD_some]
    rw [le_div_iff₀ g1]
    exact mul_le_of_le_one_right (L.outNonneg ρ) g2

theorem le_inn {W : Where.Env} {E : Expr.Env V} {pw : V → V → V} (S : Setting W E pw) {D : Flows E}
    {F : Efficiencies E} {enum : List String → List String} (henum : Traverses enum) (L : Lossy W E pw enum D F)
    {ρ : Point} (hρ : Valid W ρ) : L.innInc ρ ≤ D.inn ρ := by
  obtain ⟨h1, h2⟩ := C63_inflow S D F henum L.buildInn (by
    intro n hn d hd
    have := L.kinds n hn d hd
    simp at this ⊢
    tauto) L.resInn hρ
  obtain ⟨g1, g2⟩ := taking_proper L.proper L.shrinks W ρ
  rw [L.holdsInn.2 ρ hρ]
  by_cases hb : L.bi.at ρ = none
  · rw [hb]
    simpa using L.innNonneg ρ
  · rw [h2 hb]
    simp only [Option.getD_some]
    exact mul_le_of_le_one_right (L.innNonneg ρ) g2

/-- C63: what transmission takes in at all nodes and does not give out is what is lost, and not negative: a link
creates no energy. -/
theorem C63_transmission {W : Where.Env} {E : Expr.Env V} {pw : V → V → V} (S : Setting W E pw) (D : Flows E)
    (F : Efficiencies E) {enum : List String → List String} (henum : Traverses enum) (L : Lossy W E pw enum D F)
    {b : Arr (Option (Cell V))} (hb : buildConstraint W E enum balanceTransmission = .ok b)
    {ρ : Point} (hρ : Valid W ρ) (hsol : Satisfied b ρ) (ht : Text W "base_tech" "transmission" ρ) :
    sumOver E "nodes" (sumOver E "carriers" D.inn) ρ - sumOver E "nodes" (sumOver E "carriers" D.out) ρ =
      sumOver E "nodes" (sumOver E "carriers" (fun σ => (D.inn σ - L.innInc σ) + (L.outInc σ - D.out σ))) ρ ∧
    0 ≤ sumOver E "nodes" (sumOver E "carriers" D.inn) ρ - sumOver E "nodes" (sumOver E "carriers" D.out) ρ := by
  have hc : ∀ d ∈ ["nodes", "carriers"], E.coords d ≠ [] := by
    intro d _
    rw [S.coords]
    exact List.ne_nil_of_mem (hρ d)
  have hval : ∀ n ∈ E.coords "nodes", ∀ c ∈ E.coords "carriers", Valid W (set (set ρ "nodes" n) "carriers" c) := by
    intro n hn c hcc
    rw [S.coords] at hn hcc
    intro d
    unfold Expr.set
    split
    · rename_i h; rw [h]; exact hcc
    · split
      · rename_i h; rw [h]; exact hn
      · exact hρ d
  obtain ⟨h1, h2⟩ := single_at S.wf henum (by simp) hb
    (by simp [subRefs]) (by simp [sliceRefs])
    (by simp [Ok, Apart, NoOps]) (by simp [Ok, Apart, NoOps]) hρ (by
      intro σ hs
      rw [truth_isText, truth_isText]
      exact text_same hs (by
        intro d hd
        have := L.kinds _ (List.mem_singleton.2 rfl) d hd
        simp at this ⊢
        tauto))
  have e1 := mean_sum (slices := fun n => List.lookup n []) (over := ["nodes", "carriers"]) S.wf L.holdsOut.1
    (by simp) (by simp) hc ρ
  have e2 := mean_sum (slices := fun n => List.lookup n []) (over := ["nodes", "carriers"]) S.wf L.holdsInn.1
    (by simp) (by simp) hc ρ
  rw [points_two] at e1 e2
  have hbal : sumOver E "nodes" (sumOver E "carriers" L.outInc) ρ = sumOver E "nodes" (sumOver E "carriers" L.innInc) ρ := by
    by_cases hin : InModel W ["techs", "timesteps"] ρ
    · have hne := h1.2 ⟨hin, (truth_isText _ _ _).2 ht⟩
      have := h2 hne
      unfold plain at this
      rw [e1, e2] at this
      exact (hsol _ _).1 this
    · have hz : ∀ {arr f nm}, Holds W E nm ["nodes", "carriers"] arr f →
          (∀ σ, Valid W σ → arr.at σ ≠ none → InModel W ["nodes", "techs", "carriers", "timesteps"] σ) →
          sumOver E "nodes" (sumOver E "carriers" f) ρ = 0 := by
        intro arr f nm hh honly
        apply sumOver_zero
        intro n hn
        apply sumOver_zero
        intro c hcc
        rw [hh.2 _ (hval n hn c hcc)]
        by_cases hnone : arr.at (set (set ρ "nodes" n) "carriers" c) = none
        · rw [hnone]; rfl
        · obtain ⟨hk, σ, hv, hs, hm⟩ := honly _ (hval n hn c hcc) hnone
          refine absurd ⟨fun d hd => hk d (by simp at hd ⊢; tauto), σ, hv, ?_, hm⟩ hin
          intro d hd
          have := hs d (by simp at hd ⊢; tauto)
          rw [this]
          unfold Expr.set
          have hd1 : d ≠ "carriers" := by rintro rfl; simp at hd
          have hd2 : d ≠ "nodes" := by rintro rfl; simp at hd
          rw [if_neg hd1, if_neg hd2]
      have hk4 : Within W ["nodes", "techs", "carriers", "timesteps"] ["base_tech"] := by
        intro n hn d hd
        have := L.kinds n hn d hd
        simp at this ⊢
        tauto
      rw [hz L.holdsOut (fun σ hσ hne => ((C63_outflow S D F henum L.buildOut hk4 L.resOut hσ).1.1 hne).1),
        hz L.holdsInn (fun σ hσ hne => ((C63_inflow S D F henum L.buildInn hk4 L.resInn hσ).1.1 hne).1)]
  have heq : sumOver E "nodes" (sumOver E "carriers" D.inn) ρ - sumOver E "nodes" (sumOver E "carriers" D.out) ρ =
      sumOver E "nodes" (sumOver E "carriers" (fun σ => (D.inn σ - L.innInc σ) + (L.outInc σ - D.out σ))) ρ := by
    have : sumOver E "carriers" (fun σ => (D.inn σ - L.innInc σ) + (L.outInc σ - D.out σ)) =
        fun σ => (sumOver E "carriers" D.inn σ - sumOver E "carriers" L.innInc σ) +
          (sumOver E "carriers" L.outInc σ - sumOver E "carriers" D.out σ) := by
      funext σ
      rw [sumOver_add, sumOver_sub, sumOver_sub]
    rw [this, sumOver_add, sumOver_sub, sumOver_sub, hbal]
    ring
  refine ⟨heq, ?_⟩
  rw [heq]
  apply sumOver_nonneg
  intro n hn
  apply sumOver_nonneg
  intro c hcc
  have hv := hval n hn c hcc
  have a1 := out_le S henum L hv
  have a2 := le_inn S henum L hv
  linarith

/-- C63: likewise conversion at one node. -/
theorem C63_conversion {W : Where.Env} {E : Expr.Env V} {pw : V → V → V} (S : Setting W E pw) (D : Flows E)
    (F : Efficiencies E) {enum : List String → List String} (henum : Traverses enum) (L : Lossy W E pw enum D F)
    {b : Arr (Option (Cell V))} (hb : buildConstraint W E enum balanceConversion = .ok b)
    (hst : Within W ["nodes", "techs", "timesteps"] ["include_storage"])
    {ρ : Point} (hρ : Valid W ρ) (hsol : Satisfied b ρ) (ht : Text W "base_tech" "conversion" ρ)
    (hno : ¬ Flag W "include_storage" ρ) :
    sumOver E "carriers" D.inn ρ - sumOver E "carriers" D.out ρ =
      sumOver E "carriers" (fun σ => (D.inn σ - L.innInc σ) + (L.outInc σ - D.out σ)) ρ ∧
    0 ≤ sumOver E "carriers" D.inn ρ - sumOver E "carriers" D.out ρ := by
  have hc : E.coords "carriers" ≠ [] := by
    rw [S.coords]
    exact List.ne_nil_of_mem (hρ _)
  have hval : ∀ c ∈ E.coords "carriers", Valid W (set ρ "carriers" c) := by
    intro c hcc
    rw [S.coords] at hcc
    intro d
    unfold Expr.set
    split
    · rename_i h; rw [h]; exact hcc
    · exact hρ d
  obtain ⟨h1, h2⟩ := single_at S.wf henum (by simp) hb
    (by simp [subRefs]) (by simp [sliceRefs])
    (by simp [Ok, Apart, NoOps]) (by simp [Ok, Apart, NoOps]) hρ (by
      intro σ hs
      rw [truth_both, truth_both, truth_no, truth_no, truth_isText, truth_isText, truth_isTrue, truth_isTrue,
        flag_same hs (hst _ (List.mem_singleton.2 rfl)), text_same hs]
      intro d hd
      have := L.kinds _ (List.mem_singleton.2 rfl) d hd
      simp at this ⊢
      tauto)
  have e1 := mean_sum_one (slices := fun n => List.lookup n []) S.wf L.holdsOut.1 (by simp) hc ρ
  have e2 := mean_sum_one (slices := fun n => List.lookup n []) S.wf L.holdsInn.1 (by simp) hc ρ
  have hbal : sumOver E "carriers" L.outInc ρ = sumOver E "carriers" L.innInc ρ := by
    by_cases hin : InModel W ["nodes", "techs", "timesteps"] ρ
    · have hne := h1.2 ⟨hin, by
        rw [truth_both, truth_no, truth_isText, truth_isTrue]
        exact ⟨ht, hno⟩⟩
      have := h2 hne
      unfold plain at this
      rw [e1, e2] at this
      exact (hsol _ _).1 this
    · have hz : ∀ {arr f nm}, Holds W E nm ["nodes", "carriers"] arr f →
          (∀ σ, Valid W σ → arr.at σ ≠ none → InModel W ["nodes", "techs", "carriers", "timesteps"] σ) →
          sumOver E "carriers" f ρ = 0 := by
        intro arr f nm hh honly
        apply sumOver_zero
        intro c hcc
        rw [hh.2 _ (hval c hcc)]
        by_cases hnone : arr.at (set ρ "carriers" c) = none
        · rw [hnone]; rfl
        · obtain ⟨hk, σ, hv, hs, hm⟩ := honly _ (hval c hcc) hnone
          refine absurd ⟨fun d hd => hk d (by simp at hd ⊢; tauto), σ, hv, ?_, hm⟩ hin
          intro d hd
          have := hs d (by simp at hd ⊢; tauto)
          rw [this]
          unfold Expr.set
          have hd1 : d ≠ "carriers" := by rintro rfl; simp at hd
          rw [if_neg hd1]
      have hk4 : Within W ["nodes", "techs", "carriers", "timesteps"] ["base_tech"] := by
        intro n hn d hd
        have := L.kinds n hn d hd
        simp at this ⊢
        tauto
      rw [hz L.holdsOut (fun σ hσ hne => ((C63_outflow S D F henum L.buildOut hk4 L.resOut hσ).1.1 hne).1),
        hz L.holdsInn (fun σ hσ hne => ((C63_inflow S D F henum L.buildInn hk4 L.resInn hσ).1.1 hne).1)]
  have heq : sumOver E "carriers" D.inn ρ - sumOver E "carriers" D.out ρ =
      sumOver E "carriers" (fun σ => (D.inn σ - L.innInc σ) + (L.outInc σ - D.out σ)) ρ := by
    rw [sumOver_add, sumOver_sub, sumOver_sub, hbal]
    ring
  refine ⟨heq, ?_⟩
  rw [heq]
  apply sumOver_nonneg
  intro c hcc
  have hv := hval c hcc
  have a1 := out_le S henum L hv
  have a2 := le_inn S henum L hv
  linarith

omit [LinearOrder V] [IsStrictOrderedRing V] in
theorem sumOver_comm {E : Expr.Env V} {d e : String} (h : d ≠ e) (f : Point → V) (ρ : Point) :
    sumOver E d (sumOver E e f) ρ = sumOver E e (sumOver E d f) ρ := by
  have hset : ∀ l m, set (set ρ d l) e m = set (set ρ e m) d l := by
    intro l m
    funext x
    unfold Expr.set
    by_cases h1 : x = e
    · subst h1
      rw [if_pos rfl, if_neg (Ne.symm h), if_pos rfl]
    · rw [if_neg h1]
      by_cases h2 : x = d
      · rw [if_pos h2, if_pos h2]
      · rw [if_neg h2, if_neg h2, if_neg h1]
  unfold sumOver
  simp only [hset]
  induction E.coords d with
  | nil => simp
  | cons a l ih =>
    simp only [List.map_cons, List.sum_cons, ih]
    induction E.coords e with
    | nil => simp
    | cons b k ih' =>
      simp only [List.map_cons, List.sum_cons]
      rw [← ih']
      ring

omit [LinearOrder V] [IsStrictOrderedRing V] in
theorem everywhere_techs {E : Expr.Env V} (f : Point → V) (ρ : Point) :
    everywhere E f ρ = sumOver E "techs" (sumOver E "nodes" (sumOver E "carriers" f)) ρ := by
  unfold everywhere
  rw [show sumOver E "carriers" (sumOver E "techs" f) = sumOver E "techs" (sumOver E "carriers" f) from
    funext (fun σ => sumOver_comm (by decide) f σ), sumOver_comm (by decide)]

omit [LinearOrder V] [IsStrictOrderedRing V] in
/-- Where a kind is a property of technologies, its part of a sum is over some technologies. -/
theorem ofKind_sum {W : Where.Env} {E : Expr.Env V} (hk : Within W ["techs"] ["base_tech"]) (k : String) (f : Point → V)
    {d : String} (hd : d ≠ "techs") (ρ : Point) :
    sumOver E d (ofKind W k f) ρ = ofKind W k (sumOver E d f) ρ := by
  have hsame : ∀ l, (Text W "base_tech" k (set ρ d l) ↔ Text W "base_tech" k ρ) := by
    intro l
    refine text_same (sets := ["techs"]) ?_ (hk _ (by simp))
    intro x hx
    simp at hx
    subst hx
    unfold Expr.set
    rw [if_neg (Ne.symm hd)]
  unfold ofKind
  by_cases ht : Text W "base_tech" k ρ
  · rw [if_pos ht]
    apply sumOver_congr
    intro l _
    rw [if_pos ((hsame l).2 ht)]
  · rw [if_neg ht]
    apply sumOver_zero
    intro l _
    rw [if_neg (fun h => ht ((hsame l).1 h))]

theorem kind_nonneg {W : Where.Env} {E : Expr.Env V} {pw : V → V → V} (S : Setting W E pw)
    (hk : Within W ["techs"] ["base_tech"]) (k : String) (f g : Point → V) {ρ : Point} (hρ : Valid W ρ)
    (h : ∀ σ, Valid W σ → σ "timesteps" = ρ "timesteps" → Text W "base_tech" k σ →
      0 ≤ sumOver E "nodes" (sumOver E "carriers" f) σ - sumOver E "nodes" (sumOver E "carriers" g) σ) :
    0 ≤ everywhere E (ofKind W k f) ρ - everywhere E (ofKind W k g) ρ := by
  have hin : ∀ f : Point → V, sumOver E "nodes" (sumOver E "carriers" (ofKind W k f)) =
      ofKind W k (sumOver E "nodes" (sumOver E "carriers" f)) := by
    intro f
    rw [show sumOver E "carriers" (ofKind W k f) = ofKind W k (sumOver E "carriers" f) from
      funext (fun σ => ofKind_sum hk k f (by decide) σ)]
    exact funext (fun σ => ofKind_sum hk k _ (by decide) σ)
  rw [everywhere_techs, everywhere_techs, hin, hin, ← sumOver_sub]
  apply sumOver_nonneg
  intro l hl
  unfold ofKind
  split
  · rename_i ht
    refine h _ ?_ (by simp [Expr.set]) ht
    rw [S.coords] at hl
    intro d
    unfold Expr.set
    split
    · rename_i h; rw [h]; exact hl
    · exact hρ d
  · simp

/-- C63: no energy comes from nothing: at every time step, what demand takes and what is exported or unused is at most
supply, unmet demand and what storage gives out, less what it takes in. -/
theorem C63_no_gain {W : Where.Env} {E : Expr.Env V} {pw : V → V → V} (S : Setting W E pw) (D : Flows E)
    (F : Efficiencies E) {enum : List String → List String} (henum : Traverses enum) (L : Lossy W E pw enum D F)
    {bs bt bc : Arr (Option (Cell V))} (hbs : buildConstraint W E enum systemBalance = .ok bs)
    (hbt : buildConstraint W E enum balanceTransmission = .ok bt)
    (hbc : buildConstraint W E enum balanceConversion = .ok bc)
    (hst : Within W ["nodes", "techs", "timesteps"] ["include_storage"])
    (hexp : Only W ["nodes", "techs", "carriers", "timesteps"] D.exp)
    (hun : ∀ f ∈ [D.unmet, D.unused], Only W ["nodes", "carriers", "timesteps"] f)
    (hkind : ∀ ρ, Text W "base_tech" "supply" ρ ∨ Text W "base_tech" "demand" ρ ∨
      Text W "base_tech" "transmission" ρ ∨ Text W "base_tech" "conversion" ρ ∨ Text W "base_tech" "storage" ρ)
    (hsup : ∀ ρ, Text W "base_tech" "supply" ρ → D.inn ρ = 0)
    (hdem : ∀ ρ, Text W "base_tech" "demand" ρ → D.out ρ = 0)
    (hcon : ∀ ρ, Text W "base_tech" "conversion" ρ → ¬ Flag W "include_storage" ρ)
    (hsol : ∀ ρ, Valid W ρ → Satisfied bs ρ ∧ Satisfied bt ρ ∧ Satisfied bc ρ) {ρ : Point} (hρ : Valid W ρ) :
    everywhere E (ofKind W "demand" D.inn) ρ + everywhere E D.exp ρ -
        sumOver E "nodes" (sumOver E "carriers" D.unused) ρ ≤
      everywhere E (ofKind W "supply" D.out) ρ + sumOver E "nodes" (sumOver E "carriers" D.unmet) ρ +
      (everywhere E (ofKind W "storage" D.out) ρ - everywhere E (ofKind W "storage" D.inn) ρ) := by
  have h := C63_system S D henum hbs (by
      intro f hf
      simp only [List.mem_cons, List.not_mem_nil, or_false] at hf
      rcases hf with rfl | rfl | rfl
      · exact fun σ hne => (L.onlyOut σ hne).1
      · exact fun σ hne => (L.onlyInn σ hne).1
      · exact hexp) hun hkind hsup hdem (fun σ hσ => (hsol σ hσ).1) hρ
  have ht := kind_nonneg S L.kinds "transmission" D.inn D.out hρ (fun σ hσ _ hT =>
    (C63_transmission S D F henum L hbt hσ (hsol σ hσ).2.1 hT).2)
  have hc := kind_nonneg S L.kinds "conversion" D.inn D.out hρ (fun σ hσ _ hT => by
    rw [← sumOver_sub]
    apply sumOver_nonneg
    intro n hn
    have hv : Valid W (set σ "nodes" n) := by
      rw [S.coords] at hn
      intro d
      unfold Expr.set
      split
      · rename_i h; rw [h]; exact hn
      · exact hσ d
    have hT' : Text W "base_tech" "conversion" (set σ "nodes" n) := by
      refine (text_same (sets := ["techs"]) ?_ (L.kinds _ (by simp))).2 hT
      intro x hx
      simp at hx
      subst hx
      simp [Expr.set]
    exact (C63_conversion S D F henum L hbc hst hv (hsol _ hv).2.2 hT' (hcon _ hT')).2)
  linarith

end ordered

end BaseMath
end Calliope
