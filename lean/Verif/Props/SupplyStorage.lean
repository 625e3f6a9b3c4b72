import Verif.Props.BaseMath
import Verif.Props.BaseBalance
import Verif.Spec.SupplyStorage

/-!
# Supply technologies with storage (C124)
-/

namespace Calliope
namespace BaseMath

open Grid Infix Expr Expand Build Where

variable {V : Type}

/-- The equations of `balance_supply_with_storage`. -/
def supplyEquation [Field V] (i : Nat) (p : Cond × Ex V) : Equation V Cond :=
  ⟨[("balance_supply_with_storage", 0), ("storage_previous_step", i)], [always, p.1],
    .cmp (.comp "storage") "=="
      (.chain (.sub "storage_previous_step") (.more .plus (bin (.comp "source_use") .times (.comp "source_eff"))
        (.one .minus (.comp "flow_out_inc_eff")))),
    [("storage_previous_step", p.2)], []⟩

theorem parse_balanceSupply [Field V] {enum : List String → List String} (henum : Traverses enum) :
    parseEquations enum (balanceSupplyWithStorage (V := V)).defn =
      .ok (storagePreviousStep.zipIdx.map (fun p => supplyEquation p.2 p.1)) := by
  simp only [balanceSupplyWithStorage, parseEquations, initial, List.zipIdx_cons, List.zipIdx_nil, List.map_cons,
    List.map_nil, extendAll, findSubs, subRefs, subRefsRest, List.cons_append, List.append_nil, List.nil_append,
    extend, enum_singleton henum, gather, List.lookup_cons, beq_self_eq_true, cases, product, storagePreviousStep,
    List.flatMap_cons, List.flatMap_nil, addSubs, findSlices, sliceRefs, sliceRefsRest, bin, enum_nil henum,
    supplyEquation]

theorem truth_supply [Field V] {W : Where.Env} (ρ : Point) :
    Truth W ρ (balanceSupplyWithStorage (V := V)).top ↔ SupplyStores W ρ := by
  simp only [balanceSupplyWithStorage, truth_both, truth_built, truth_isText, SupplyStores, Exists]

/-- The meaning of the right-hand side. -/
theorem supply_rhs [Field V] {E : Expr.Env V} {pw : V → V → V} (hN : Numbers E pw)
    (D : StorageData E) (A : SourceData E) (i : Nat) (w : Cond) (x : Ex V) (ρ : Point) {v : V}
    (hx : (mean E (fun n => List.lookup n []) (fun _ => true) [] x).val ρ = some v) :
    value E (supplyEquation i (w, x)) (.chain (.sub "storage_previous_step")
      (.more .plus (bin (.comp "source_use") .times (.comp "source_eff"))
        (.one .minus (.comp "flow_out_inc_eff")))) ρ = some (v + A.gain D ρ) := by
  have h1 : (mean E (fun n => List.lookup n []) (fun _ => true) []
      (bin (.comp "source_use") .times (.comp "source_eff"))).val ρ = some (A.source ρ * A.eff ρ) := by
    rw [mean_bin, mean_comp A.isSource, mean_comp A.isEff, hN.times]
  have h2 := mean_comp (slices := fun n => List.lookup n []) D.isOut ρ
  have h3 := mean_bin3 (E := E) (slices := fun n => List.lookup n []) x
    (bin (.comp "source_use") .times (.comp "source_eff")) (.comp "flow_out_inc_eff") .plus .minus ρ
  rw [hx, h1, h2, hN.plus, hN.minus] at h3
  unfold value supplyEquation
  simp only [Expr.inline, Expr.inlineRest, List.lookup_cons, beq_self_eq_true, Option.getD_some, bin]
  rw [bin3] at h3
  simp only [bin] at h3
  rw [h3]
  congr 1
  unfold SourceData.gain
  ring

theorem supply_simple [Field V] {i : Nat} {w : Cond} {x : Ex V} (h : (storagePreviousStep (V := V))[i]? = some (w, x)) :
    Simple balanceSupplyWithStorage (supplyEquation i (w, x)) (.chain (.sub "storage_previous_step")
      (.more .plus (bin (.comp "source_use") .times (.comp "source_eff"))
        (.one .minus (.comp "flow_out_inc_eff")))) := by
  have key : i < 3 := by
    have := (List.getElem?_eq_some_iff.1 h).1
    simpa [storagePreviousStep] using this
  unfold Simple supplyEquation
  simp only [Expr.inline, Expr.inlineRest, List.lookup_cons, beq_self_eq_true, Option.getD_some, bin]
  interval_cases i <;> simp only [storagePreviousStep] at h <;> cases h <;>
    simp [Ok, OkRest, Apart, ApartRest, NoOps, bin, balanceSupplyWithStorage]

/-- C124: the balance of supply technologies with a store is built for every carrier at every time step of every supply
technology that has a store, and at no other item; it says that the level is the level before plus what arrives from the
source, less the outflow of the carrier. -/
theorem C124_rule [Field V] {W : Where.Env} {E : Expr.Env V} {pw : V → V → V} (S : Setting W E pw)
    (D : StorageData E) (A : SourceData E) (hw : SupplyInputs W) {enum : List String → List String}
    (henum : Traverses enum) {b : Arr (Option (Cell V))} (hb : buildConstraint W E enum balanceSupplyWithStorage = .ok b)
    {ρ : Point} (hρ : Valid W ρ) :
    (b.at ρ ≠ none ↔ InModel W ["nodes", "techs", "carriers", "timesteps"] ρ ∧ SupplyStores W ρ) ∧
    (b.at ρ ≠ none → ∀ v, Before W pw D ρ v →
      b.at ρ = some ⟨some (D.level ρ), "==", some (v + A.gain D ρ)⟩) := by
  obtain ⟨hE, hco, hN, hd, _⟩ := S
  have hes := parse_balanceSupply (V := V) henum
  obtain ⟨h1, _, h3⟩ := C71_constraint hE (by simp [balanceSupplyWithStorage]) hb hes hρ
  have hfl : ∀ n ∈ ["base_tech", "cyclic_storage", "cluster_first_timestep"], ∀ σ,
      SameAlong ["nodes", "techs", "carriers", "timesteps"] ρ σ → (Flag W n σ ↔ Flag W n ρ) :=
    fun n hn σ hs => flag_same hs (hw.inputs n hn)
  have htx : ∀ s σ, SameAlong ["nodes", "techs", "carriers", "timesteps"] ρ σ →
      (Text W "base_tech" s σ ↔ Text W "base_tech" s ρ) :=
    fun s σ hs => text_same hs (hw.inputs _ (by simp))
  have hfi : ∀ σ, SameAlong ["nodes", "techs", "carriers", "timesteps"] ρ σ → (First W σ ↔ First W ρ) :=
    fun σ hs => first_same hs (by simp)
  have hap : ∀ p ∈ (storagePreviousStep (V := V)).zipIdx,
      (Applies W (balanceSupplyWithStorage (V := V)) ρ (supplyEquation p.2 p.1) ↔
        InModel W ["nodes", "techs", "carriers", "timesteps"] ρ ∧ SupplyStores W ρ ∧ Truth W ρ p.1.1) := by
    intro p hp
    rw [applies_iff hρ]
    · rw [truth_supply]
      simp [supplyEquation, balanceSupplyWithStorage]
    · intro σ hs
      rw [truth_supply, truth_supply]
      have hs' : SameAlong ["nodes", "techs", "carriers", "timesteps"] ρ σ := hs
      unfold SupplyStores
      rw [built_same hs' hw.storage, htx _ σ hs']
    · intro w hwm σ hs
      have hs' : SameAlong ["nodes", "techs", "carriers", "timesteps"] ρ σ := hs
      have c1 := hfl "cyclic_storage" (by simp) σ hs'
      have c2 := hfl "cluster_first_timestep" (by simp) σ hs'
      have c3 := hfi σ hs'
      simp only [supplyEquation, List.mem_cons, List.not_mem_nil, or_false] at hwm
      rcases hwm with rfl | rfl
      · simp
      · simp only [storagePreviousStep, List.zipIdx_cons, List.zipIdx_nil, List.mem_cons, List.not_mem_nil,
          or_false] at hp
        rcases hp with rfl | rfl | rfl <;>
          simp only [truth_both, truth_no, truth_either, truth_isTrue, truth_first hd, c1, c2, c3]
  have hmem : ∀ {i : Nat} {w x}, (storagePreviousStep (V := V))[i]? = some (w, x) →
      ((w, x), i) ∈ (storagePreviousStep (V := V)).zipIdx := fun h => List.mem_zipIdx_iff_getElem?.2 h
  have hiff : b.at ρ ≠ none ↔ InModel W ["nodes", "techs", "carriers", "timesteps"] ρ ∧ SupplyStores W ρ := by
    rw [ne_eq, h1]
    constructor
    · intro hn
      push Not at hn
      obtain ⟨e, he, ha⟩ := hn
      obtain ⟨p, hp, rfl⟩ := List.mem_map.1 he
      exact ⟨((hap p hp).1 ha).1, ((hap p hp).1 ha).2.1⟩
    · rintro ⟨g1, g2⟩ hn
      obtain ⟨i, ⟨w, x, hi, ht⟩, _⟩ := C61_exactly_one (V := V) W ρ
      exact hn _ (List.mem_map.2 ⟨_, hmem hi, rfl⟩) ((hap _ (hmem hi)).2 ⟨g1, g2, ht⟩)
  refine ⟨hiff, ?_⟩
  intro hne v hv
  obtain ⟨g1, g2⟩ := hiff.1 hne
  have fin : ∀ {i : Nat} {w x}, (storagePreviousStep (V := V))[i]? = some (w, x) → Truth W ρ w →
      (mean E (fun n => List.lookup n []) (fun _ => true) [] x).val ρ = some v →
      b.at ρ = some ⟨some (D.level ρ), "==", some (v + A.gain D ρ)⟩ := by
    intro i w x hi ht hx
    obtain ⟨l, o, r, hbody, hval⟩ := h3 _ (List.mem_map.2 ⟨_, hmem hi, rfl⟩) ((hap _ (hmem hi)).2 ⟨g1, g2, ht⟩)
    simp only [supplyEquation, Body.cmp.injEq] at hbody
    obtain ⟨rfl, rfl, rfl⟩ := hbody
    rw [hval (by simp [Simple, Expr.inline, Ok, Apart]) (supply_simple hi), supply_rhs hN D A i w x ρ hx]
    congr 2
    unfold value
    simp only [Expr.inline]
    exact mean_comp D.isLevel ρ
  have hroll : ∀ {n f}, Is E n [] f → (mean E (fun n => List.lookup n []) (fun _ => true) []
      (.roll (.comp n) [("timesteps", 1)])).val ρ = some (f (previous W ρ)) := by
    intro n f h
    rw [mean_roll h, hco]
    rfl
  rcases hv with ⟨k1, k2, rfl⟩ | ⟨k1, k2, rfl⟩ | ⟨k1, k2, g, l, hg, hl, hm, rfl⟩
  · refine fin (i := 0) rfl ?_ ?_
    · simp only [truth_both, truth_no, truth_isTrue, truth_first hd]
      exact ⟨k1, k2⟩
    · rw [mean_bin, mean_comp D.isInit, mean_comp D.isCap, hN.times]
  · refine fin (i := 1) rfl ?_ ?_
    · simp only [truth_both, truth_no, truth_either, truth_isTrue, truth_first hd]
      tauto
    · rw [mean_bin, mean_bin, mean_bin, mean_comp D.isLoss, hroll D.isHours, hroll D.isLevel,
        show (mean E (fun n => List.lookup n []) (fun _ => true) [] (.num 1)).val ρ = some 1 from rfl,
        hN.minus, hN.pow, hN.times]
  · refine fin (i := 2) rfl ?_ ?_
    · simp only [truth_both, truth_no, truth_isTrue, truth_first hd]
      exact ⟨k2, k1⟩
    · rw [mean_bin, mean_bin, mean_bin, mean_comp D.isLoss, mean_select D.isHours hg _ ρ hl hm,
        mean_select D.isLevel hg _ ρ hl hm,
        show (mean E (fun n => List.lookup n []) (fun _ => true) [] (.num 1)).val ρ = some 1 from rfl,
        hN.minus, hN.pow, hN.times]

/-! ### Over the horizon -/

/-- A store that gains `N` at each of consecutive time steps of which only the first may be the first of a cluster. -/
theorem stored_block [Field V] {W : Where.Env} {E : Expr.Env V} {pw : V → V → V} (S : Setting W E pw) (D : StorageData E)
    {N : Point → V} {ρ : Point} (hloss : ∀ t, D.loss (set ρ "timesteps" t) = D.loss ρ)
    {x y : Label} {B pre post : List Label} (hT : W.coords "timesteps" = pre ++ (x :: B) ++ post)
    (hy : (x :: B).getLast? = some y)
    (hsolve : ∀ t ∈ x :: B, ∀ u, Before W pw D (set ρ "timesteps" t) u →
      D.level (set ρ "timesteps" t) = u + N (set ρ "timesteps" t))
    (hcl : ∀ t ∈ B, ¬ Flag W "cluster_first_timestep" (set ρ "timesteps" t))
    {v : V} (hv : Before W pw D (set ρ "timesteps" x) v) :
    D.level (set ρ "timesteps" y) - D.lost pw (set ρ "timesteps" y) =
      v + sumSteps (x :: B) N ρ - sumSteps (x :: B) (D.lost pw) ρ := by
  have hnod := S.steps
  have hBnod : (x :: B).Nodup := by
    rw [hT] at hnod
    exact (List.nodup_append.1 (List.nodup_append.1 hnod).1).2.1
  have hchain : List.IsChain (fun s t => D.level (set ρ "timesteps" t) =
      pw (1 - D.loss ρ) (D.hours (set ρ "timesteps" s)) * D.level (set ρ "timesteps" s) +
        N (set ρ "timesteps" t)) (x :: B) := by
    have hc := rolled_chain (B := x :: B) hnod hT
    have hc' : List.IsChain (fun s t => rolled (W.coords "timesteps") 1 t = s ∧ t ∈ B) (x :: B) := by
      rw [List.isChain_iff_getElem] at hc ⊢
      intro i hi
      exact ⟨hc i hi, by simp⟩
    refine hc'.imp ?_
    rintro s t ⟨hst, htB⟩
    have ht : t ∈ x :: B := List.mem_cons_of_mem _ htB
    refine hsolve t ht _ (.inr (.inl ⟨?_, hcl t htB, ?_⟩))
    · rintro ⟨hf, _⟩
      unfold First at hf
      rw [set_at, hT] at hf
      cases pre with
      | nil =>
        simp only [List.nil_append, List.cons_append, List.head?_cons, Option.some.injEq] at hf
        subst hf
        exact (List.nodup_cons.1 hBnod).1 htB
      | cons z pre =>
        simp only [List.cons_append, List.head?_cons, Option.some.injEq] at hf
        subst hf
        rw [hT] at hnod
        simp only [List.cons_append, List.nodup_cons, List.mem_append] at hnod
        exact hnod.1 (.inl (.inr ht))
    · unfold previous
      rw [set_set, set_at, hst, hloss]
  have key := chain_sum (fun t => D.level (set ρ "timesteps" t)) (fun t => N (set ρ "timesteps" t))
    (fun s => pw (1 - D.loss ρ) (D.hours (set ρ "timesteps" s)) * D.level (set ρ "timesteps" s)) x B v
    (hsolve x (by simp) v hv) hchain
  have hlast : (x :: B).getLast (by simp) = y := by
    rw [List.getLast?_eq_some_getLast (by simp)] at hy
    exact Option.some.inj hy
  rw [hlast] at key
  have hlost : ∀ t, D.lost pw (set ρ "timesteps" t) = D.level (set ρ "timesteps" t) -
      pw (1 - D.loss ρ) (D.hours (set ρ "timesteps" t)) * D.level (set ρ "timesteps" t) := by
    intro t
    unfold StorageData.lost
    rw [hloss]
    ring
  have hsum : sumSteps (x :: B) (D.lost pw) ρ = ((x :: B).map (fun t => D.level (set ρ "timesteps" t))).sum -
      ((x :: B).map (fun s => pw (1 - D.loss ρ) (D.hours (set ρ "timesteps" s)) * D.level (set ρ "timesteps" s))).sum := by
    unfold sumSteps
    rw [← sum_sub]
    congr 1
    apply List.map_congr_left
    intro t _
    exact hlost t
  rw [hsum, key, hlost]
  unfold sumSteps
  ring

section Horizon

variable [Field V] [LE V] {W : Where.Env} {E : Expr.Env V} {pw : V → V → V} (S : Setting W E pw) (D : StorageData E)
  (A : SourceData E) (hw : SupplyInputs W) {enum : List String → List String} (henum : Traverses enum)
  {b : Arr (Option (Cell V))} (hb : buildConstraint W E enum balanceSupplyWithStorage = .ok b) {ρ : Point}
  (hρ : Valid W ρ)

include S hw henum hb in
theorem supply_solved {σ : Point} (hσ : Valid W σ) (hsol : Satisfied b σ)
    (hin : InModel W ["nodes", "techs", "carriers", "timesteps"] σ) (hst : SupplyStores W σ) {v : V}
    (hv : Before W pw D σ v) : D.level σ = v + A.gain D σ := by
  obtain ⟨h1, h2⟩ := C124_rule S D A hw henum hb hσ
  exact (hsol _ _).1 (h2 (h1.2 ⟨hin, hst⟩) v hv)

include S hw henum hb hρ in
/-- C124: a store that is not cyclic: what is left after the last time step is the initial level plus all that arrived from
the source, less all outflow of the carrier and all that is lost. -/
theorem C124_horizon (hloss : ∀ t, D.loss (set ρ "timesteps" t) = D.loss ρ)
    {x y : Label} (hx : (W.coords "timesteps").head? = some x) (hy : (W.coords "timesteps").getLast? = some y)
    (hall : ∀ t ∈ W.coords "timesteps", Satisfied b (set ρ "timesteps" t) ∧
      InModel W ["nodes", "techs", "carriers", "timesteps"] (set ρ "timesteps" t) ∧ SupplyStores W (set ρ "timesteps" t))
    (hcl : ∀ t ∈ W.coords "timesteps", ¬ Flag W "cluster_first_timestep" (set ρ "timesteps" t))
    (hcy : ¬ Flag W "cyclic_storage" (set ρ "timesteps" x)) :
    D.level (set ρ "timesteps" y) - D.lost pw (set ρ "timesteps" y) =
      D.init (set ρ "timesteps" x) * D.cap (set ρ "timesteps" x) +
        sumOver E "timesteps" (A.gain D) ρ - sumOver E "timesteps" (D.lost pw) ρ := by
  obtain ⟨B, hB⟩ : ∃ B, W.coords "timesteps" = x :: B := by
    cases h : W.coords "timesteps" with
    | nil => rw [h] at hx; cases hx
    | cons a B => rw [h] at hx; cases hx; exact ⟨B, rfl⟩
  have h := stored_block S D hloss (N := A.gain D) (pre := []) (post := []) (x := x) (y := y) (B := B)
    (by simp [hB]) (by rw [← hB]; exact hy)
    (fun t ht u hu => by
      have ht' : t ∈ W.coords "timesteps" := by rw [hB]; exact ht
      obtain ⟨h1, h2, h3⟩ := hall t ht'
      exact supply_solved S D A hw henum hb (set_valid hρ ht') h1 h2 h3 hu)
    (fun t ht => hcl t (by rw [hB]; simp [ht]))
    (.inl ⟨by unfold First; rw [set_at]; exact hx, hcy, rfl⟩)
  unfold sumOver
  rw [S.coords, hB]
  exact h

include S hw henum hb hρ in
/-- C124: a cyclic store: all that arrives from the source is all outflow of the carrier plus all that is lost. -/
theorem C124_cyclic (hloss : ∀ t, D.loss (set ρ "timesteps" t) = D.loss ρ)
    {x : Label} (hx : (W.coords "timesteps").head? = some x)
    (hall : ∀ t ∈ W.coords "timesteps", Satisfied b (set ρ "timesteps" t) ∧
      InModel W ["nodes", "techs", "carriers", "timesteps"] (set ρ "timesteps" t) ∧ SupplyStores W (set ρ "timesteps" t))
    (hcl : ∀ t ∈ W.coords "timesteps", ¬ Flag W "cluster_first_timestep" (set ρ "timesteps" t))
    (hcy : Flag W "cyclic_storage" (set ρ "timesteps" x)) :
    sumOver E "timesteps" (A.gain D) ρ = sumOver E "timesteps" (D.lost pw) ρ := by
  obtain ⟨B, hB⟩ : ∃ B, W.coords "timesteps" = x :: B := by
    cases h : W.coords "timesteps" with
    | nil => rw [h] at hx; cases hx
    | cons a B => rw [h] at hx; cases hx; exact ⟨B, rfl⟩
  have hr := rolled_head S.steps hB
  have h := stored_block S D hloss (N := A.gain D) (pre := []) (post := []) (x := x)
    (y := (x :: B).getLast (by simp)) (B := B)
    (by simp [hB]) (List.getLast?_eq_some_getLast (by simp))
    (fun t ht u hu => by
      have ht' : t ∈ W.coords "timesteps" := by rw [hB]; exact ht
      obtain ⟨h1, h2, h3⟩ := hall t ht'
      exact supply_solved S D A hw henum hb (set_valid hρ ht') h1 h2 h3 hu)
    (fun t ht => hcl t (by rw [hB]; simp [ht]))
    (.inr (.inl ⟨fun h => h.2 hcy, hcl x (by rw [hB]; simp), rfl⟩))
  unfold sumOver
  rw [S.coords, hB]
  unfold previous at h
  rw [set_set, set_at, hr, hloss] at h
  unfold StorageData.lost at h
  rw [hloss] at h
  unfold sumSteps at h
  rw [sub_mul, one_mul, sub_sub_cancel, add_sub_assoc, left_eq_add, sub_eq_zero] at h
  exact h

include S hw henum hb in
/-- C124: all carriers of such a technology have the same outflow (with losses) at every time step: each gets all that
arrives, it is not shared between them. The level, the source and what the balance starts with do not depend on the carrier. -/
theorem C124_carriers {σ τ : Point} (hσ : Valid W σ) (hτ : Valid W τ) (h1 : Satisfied b σ) (h2 : Satisfied b τ)
    (i1 : InModel W ["nodes", "techs", "carriers", "timesteps"] σ) (i2 : InModel W ["nodes", "techs", "carriers", "timesteps"] τ)
    (s1 : SupplyStores W σ) (s2 : SupplyStores W τ) {v : V} (b1 : Before W pw D σ v) (b2 : Before W pw D τ v)
    (hl : D.level σ = D.level τ) (hs : A.source σ * A.eff σ = A.source τ * A.eff τ) : D.out σ = D.out τ := by
  have e1 := supply_solved S D A hw henum hb hσ h1 i1 s1 b1
  have e2 := supply_solved S D A hw henum hb hτ h2 i2 s2 b2
  unfold SourceData.gain at e1 e2
  rw [hl, e2, hs] at e1
  have := add_left_cancel e1
  exact (sub_right_inj.1 this).symm

end Horizon

end BaseMath
end Calliope
