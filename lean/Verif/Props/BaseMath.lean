import Mathlib.Tactic.IntervalCases
import Mathlib.Tactic.Ring
import Verif.Proofs.BaseMath

/-!
# C61–C65: the base math
-/

namespace Calliope
namespace BaseMath

open Grid Infix Expr Expand Build Where

variable {V : Type}

/-! ### C61 Previous step of the storage balance -/

/-- C61: at every item, exactly one of the cases of `storage_previous_step` holds. -/
theorem C61_exactly_one [Field V] (W : Where.Env) (ρ : Point) :
    ∃! i : Nat, ∃ w x, (storagePreviousStep (V := V))[i]? = some (w, x) ∧ Truth W ρ w := by
  have key : ∀ i w x, (storagePreviousStep (V := V))[i]? = some (w, x) → i < 3 := by
    intro i w x h
    have := (List.getElem?_eq_some_iff.1 h).1
    simpa [storagePreviousStep] using this
  by_cases hA : Truth W ρ firstStep ∧ ¬ Truth W ρ (isTrue "cyclic_storage")
  · refine ⟨0, ⟨_, _, rfl, by simpa using hA⟩, ?_⟩
    rintro i ⟨w, x, h, ht⟩
    have := key i w x h
    interval_cases i
    · rfl
    · simp only [storagePreviousStep] at h
      cases h
      simp at ht
      tauto
    · simp only [storagePreviousStep] at h
      cases h
      simp at ht
      tauto
  · by_cases hK : Truth W ρ (isTrue "cluster_first_timestep")
    · refine ⟨2, ⟨_, _, rfl, by simp; tauto⟩, ?_⟩
      rintro i ⟨w, x, h, ht⟩
      have := key i w x h
      interval_cases i
      · simp only [storagePreviousStep] at h
        cases h
        simp at ht
        tauto
      · simp only [storagePreviousStep] at h
        cases h
        simp at ht
        tauto
      · rfl
    · refine ⟨1, ⟨_, _, rfl, by simp; tauto⟩, ?_⟩
      rintro i ⟨w, x, h, ht⟩
      have := key i w x h
      interval_cases i
      · simp only [storagePreviousStep] at h
        cases h
        simp at ht
        tauto
      · rfl
      · simp only [storagePreviousStep] at h
        cases h
        simp at ht
        tauto

/-- The equations of `balance_storage`. -/
def storageEquation [Field V] (i : Nat) (p : Cond × Ex V) : Equation V Cond :=
  ⟨[("balance_storage", 0), ("storage_previous_step", i)], [always, p.1],
    .cmp (.comp "storage") "=="
      (.chain (.sub "storage_previous_step") (.more .minus (.sum (.comp "flow_out_inc_eff") ["carriers"])
        (.one .plus (.sum (.comp "flow_in_inc_eff") ["carriers"])))),
    [("storage_previous_step", p.2)], []⟩

theorem parse_balanceStorage [Field V] {enum : List String → List String} (henum : Traverses enum) :
    parseEquations enum (balanceStorage (V := V)).defn =
      .ok (storagePreviousStep.zipIdx.map (fun p => storageEquation p.2 p.1)) := by
  simp only [balanceStorage, parseEquations, initial, List.zipIdx_cons, List.zipIdx_nil, List.map_cons, List.map_nil,
    extendAll, findSubs, subRefs, subRefsRest, List.cons_append, List.append_nil, List.nil_append,
    extend, enum_singleton henum, gather, List.lookup_cons, beq_self_eq_true, cases, product, storagePreviousStep,
    List.flatMap_cons, List.flatMap_nil, addSubs, findSlices, sliceRefs, sliceRefsRest, bin, enum_nil henum,
    storageEquation]

theorem truth_top [Field V] {W : Where.Env} (ρ : Point) :
    Truth W ρ (balanceStorage (V := V)).top ↔ Stores W ρ := by
  simp only [balanceStorage, truth_both, truth_either, truth_no, truth_isTrue, truth_isText, Stores]

/-- The meaning of the right-hand side of a storage balance. -/
theorem storage_rhs [Field V] {E : Expr.Env V} (hE : WellFormed E) {pw : V → V → V} (hN : Numbers E pw)
    (D : StorageData E) (hc : E.coords "carriers" ≠ []) (i : Nat) (w : Cond) (x : Ex V) (ρ : Point) {v : V}
    (hx : (mean E (fun n => List.lookup n []) (fun _ => true) [] x).val ρ = some v) :
    value E (storageEquation i (w, x)) (.chain (.sub "storage_previous_step")
      (.more .minus (.sum (.comp "flow_out_inc_eff") ["carriers"])
        (.one .plus (.sum (.comp "flow_in_inc_eff") ["carriers"])))) ρ = some (v + D.net ρ) := by
  have h1 := mean_sum_one (slices := fun n => List.lookup n []) hE D.isOut (by simp) hc ρ
  have h2 := mean_sum_one (slices := fun n => List.lookup n []) hE D.isInn (by simp) hc ρ
  have h3 := mean_bin3 (E := E) (slices := fun n => List.lookup n []) x (.sum (.comp "flow_out_inc_eff") ["carriers"])
    (.sum (.comp "flow_in_inc_eff") ["carriers"]) .minus .plus ρ
  rw [hx, h1, h2, hN.minus, hN.plus] at h3
  unfold value storageEquation
  simp only [Expr.inline, Expr.inlineRest, List.lookup_cons, beq_self_eq_true, Option.getD_some]
  rw [bin3] at h3
  rw [h3]
  congr 1
  unfold StorageData.net
  ring

theorem storage_simple [Field V] {i : Nat} {w : Cond} {x : Ex V} (h : (storagePreviousStep (V := V))[i]? = some (w, x)) :
    Simple balanceStorage (storageEquation i (w, x)) (.chain (.sub "storage_previous_step")
      (.more .minus (.sum (.comp "flow_out_inc_eff") ["carriers"])
        (.one .plus (.sum (.comp "flow_in_inc_eff") ["carriers"])))) := by
  have key : i < 3 := by
    have := (List.getElem?_eq_some_iff.1 h).1
    simpa [storagePreviousStep] using this
  unfold Simple storageEquation
  simp only [Expr.inline, Expr.inlineRest, List.lookup_cons, beq_self_eq_true, Option.getD_some]
  interval_cases i <;> simp only [storagePreviousStep] at h <;> cases h <;>
    simp [Ok, OkRest, Apart, ApartRest, NoOps, bin, balanceStorage]

/-- C61: the storage balance is built at every time step of every technology with storage that is neither supply
nor demand, and at no other item; it says that the level is the level before plus the net charge, where the level
before is the one that `Before` says. -/
theorem C61_rule [Field V] {W : Where.Env} {E : Expr.Env V} {pw : V → V → V} (S : Setting W E pw)
    (D : StorageData E) (hw : StorageInputs W) {enum : List String → List String} (henum : Traverses enum)
    {b : Arr (Option (Cell V))} (hb : buildConstraint W E enum balanceStorage = .ok b)
    {ρ : Point} (hρ : Valid W ρ) :
    (b.at ρ ≠ none ↔ InModel W ["nodes", "techs", "timesteps"] ρ ∧ Stores W ρ) ∧
    (b.at ρ ≠ none → ∀ v, Before W pw D ρ v →
      b.at ρ = some ⟨some (D.level ρ), "==", some (v + D.net ρ)⟩) := by
  obtain ⟨hE, hco, hN, hd, _⟩ := S
  have hc : E.coords "carriers" ≠ [] := by
    rw [hco]
    exact List.ne_nil_of_mem (hρ "carriers")
  have hes := parse_balanceStorage (V := V) henum
  obtain ⟨h1, _, h3⟩ := C71_constraint hE (by simp [balanceStorage]) hb hes hρ
  have hfl : ∀ n ∈ ["include_storage", "base_tech", "cyclic_storage", "cluster_first_timestep"], ∀ σ,
      SameAlong ["nodes", "techs", "timesteps"] ρ σ → (Flag W n σ ↔ Flag W n ρ) :=
    fun n hn σ hs => flag_same hs (hw n hn)
  have htx : ∀ s σ, SameAlong ["nodes", "techs", "timesteps"] ρ σ → (Text W "base_tech" s σ ↔ Text W "base_tech" s ρ) :=
    fun s σ hs => text_same hs (hw _ (by simp))
  have hfi : ∀ σ, SameAlong ["nodes", "techs", "timesteps"] ρ σ → (First W σ ↔ First W ρ) :=
    fun σ hs => first_same hs (by simp)
  have hap : ∀ p ∈ (storagePreviousStep (V := V)).zipIdx,
      (Applies W (balanceStorage (V := V)) ρ (storageEquation p.2 p.1) ↔
        InModel W ["nodes", "techs", "timesteps"] ρ ∧ Stores W ρ ∧ Truth W ρ p.1.1) := by
    intro p hp
    rw [applies_iff hρ]
    · rw [truth_top]
      simp [storageEquation, balanceStorage]
    · intro σ hs
      rw [truth_top, truth_top]
      have hs' : SameAlong ["nodes", "techs", "timesteps"] ρ σ := hs
      unfold Stores
      rw [hfl _ (by simp) σ hs', htx _ σ hs', htx _ σ hs', htx _ σ hs']
    · intro w hwm σ hs
      have hs' : SameAlong ["nodes", "techs", "timesteps"] ρ σ := hs
      have c1 := hfl "cyclic_storage" (by simp) σ hs'
      have c2 := hfl "cluster_first_timestep" (by simp) σ hs'
      have c3 := hfi σ hs'
      simp only [storageEquation, List.mem_cons, List.not_mem_nil, or_false] at hwm
      rcases hwm with rfl | rfl
      · simp
      · simp only [storagePreviousStep, List.zipIdx_cons, List.zipIdx_nil, List.mem_cons, List.not_mem_nil,
          or_false] at hp
        rcases hp with rfl | rfl | rfl <;>
          simp only [truth_both, truth_no, truth_either, truth_isTrue, truth_first hd, c1, c2, c3]
  have hmem : ∀ {i : Nat} {w x}, (storagePreviousStep (V := V))[i]? = some (w, x) →
      ((w, x), i) ∈ (storagePreviousStep (V := V)).zipIdx := fun h => List.mem_zipIdx_iff_getElem?.2 h
  have hiff : b.at ρ ≠ none ↔ InModel W ["nodes", "techs", "timesteps"] ρ ∧ Stores W ρ := by
    rw [ne_eq, h1]
    constructor
    · intro hn
      push Not at hn
      obtain ⟨e, he, ha⟩ := hn
      obtain ⟨p, hp, rfl⟩ := List.mem_map.1 he
      exact ⟨((hap p hp).1 ha).1, ((hap p hp).1 ha).2.1⟩
    · rintro ⟨g1, g2⟩ hn
      obtain ⟨i, ⟨w, x, hi, ht⟩, _⟩ := C61_exactly_one (V := V) W ρ
      exact hn _ (List.mem_map.2 ⟨_, hmem hi, rfl⟩) ((hap _ (hmem hi)).2 ⟨g1, g2, ht⟩)
  refine ⟨hiff, ?_⟩
  intro hne v hv
  obtain ⟨g1, g2⟩ := hiff.1 hne
  have fin : ∀ {i : Nat} {w x}, (storagePreviousStep (V := V))[i]? = some (w, x) → Truth W ρ w →
      (mean E (fun n => List.lookup n []) (fun _ => true) [] x).val ρ = some v →
      b.at ρ = some ⟨some (D.level ρ), "==", some (v + D.net ρ)⟩ := by
    intro i w x hi ht hx
    obtain ⟨l, o, r, hbody, hval⟩ := h3 _ (List.mem_map.2 ⟨_, hmem hi, rfl⟩) ((hap _ (hmem hi)).2 ⟨g1, g2, ht⟩)
    simp only [storageEquation, Body.cmp.injEq] at hbody
    obtain ⟨rfl, rfl, rfl⟩ := hbody
    rw [hval (by simp [Simple, Expr.inline, Ok, Apart]) (storage_simple hi), storage_rhs hE hN D hc i w x ρ hx]
    congr 2
    unfold value
    simp only [Expr.inline]
    exact mean_comp D.isLevel ρ
  have hroll : ∀ {n f}, Is E n [] f → (mean E (fun n => List.lookup n []) (fun _ => true) []
      (.roll (.comp n) [("timesteps", 1)])).val ρ = some (f (previous W ρ)) := by
    intro n f h
    rw [mean_roll h, hco]
    rfl
  rcases hv with ⟨k1, k2, rfl⟩ | ⟨k1, k2, rfl⟩ | ⟨k1, k2, g, l, hg, hl, hm, rfl⟩
  · refine fin (i := 0) rfl ?_ ?_
    · simp only [truth_both, truth_no, truth_isTrue, truth_first hd]
      exact ⟨k1, k2⟩
    · rw [mean_bin, mean_comp D.isInit, mean_comp D.isCap, hN.times]
  · refine fin (i := 1) rfl ?_ ?_
    · simp only [truth_both, truth_no, truth_either, truth_isTrue, truth_first hd]
      tauto
    · rw [mean_bin, mean_bin, mean_bin, mean_comp D.isLoss, hroll D.isHours, hroll D.isLevel,
        show (mean E (fun n => List.lookup n []) (fun _ => true) [] (.num 1)).val ρ = some 1 from rfl,
        hN.minus, hN.pow, hN.times]
  · refine fin (i := 2) rfl ?_ ?_
    · simp only [truth_both, truth_no, truth_isTrue, truth_first hd]
      exact ⟨k2, k1⟩
    · rw [mean_bin, mean_bin, mean_bin, mean_comp D.isLoss, mean_select D.isHours hg _ ρ hl hm,
        mean_select D.isLevel hg _ ρ hl hm,
        show (mean E (fun n => List.lookup n []) (fun _ => true) [] (.num 1)).val ρ = some 1 from rfl,
        hN.minus, hN.pow, hN.times]

/-! ### C62 Storage over the horizon -/

omit V in
theorem rolled_chain {T pre B post : List Label} (hn : T.Nodup) (hT : T = pre ++ B ++ post) :
    List.IsChain (fun s t => rolled T 1 t = s) B := by
  rw [List.isChain_iff_getElem]
  intro i hi
  have h1 : pre.length + i + 1 < T.length := by
    rw [hT]
    simp
    omega
  have e1 : T[pre.length + i + 1] = B[i + 1] := by
    subst hT
    rw [List.getElem_append_left (by simp; omega), List.getElem_append_right (by omega)]
    congr 1
    omega
  have e2 : T[pre.length + i] = B[i] := by
    subst hT
    rw [List.getElem_append_left (by simp; omega), List.getElem_append_right (by omega)]
    congr 1
    omega
  rw [← e1, ← e2, rolled_getElem T hn 1 _ h1]
  congr 1
  rw [show ((pre.length + i + 1 : Nat) : Int) - 1 = ((pre.length + i : Nat) : Int) by push_cast; ring]
  rw [Int.emod_eq_of_lt (by omega) (by omega)]
  rfl

omit V in
theorem rolled_head {T B : List Label} {x : Label} (hn : T.Nodup) (hT : T = x :: B) :
    rolled T 1 x = (x :: B).getLast (by simp) := by
  have h0 : 0 < T.length := by rw [hT]; simp
  have e0 : T[0] = x := by subst hT; rfl
  have h := rolled_getElem T hn 1 0 h0
  rw [e0] at h
  rw [h, List.getLast_eq_getElem]
  subst hT
  congr 1
  have h1 : ((0 : Nat) : Int) - 1 = (((x :: B).length - 1 : Nat) : Int) - ((x :: B).length : Int) * 1 := by
    simp
  rw [h1, Int.sub_mul_emod_self_left, Int.emod_eq_of_lt (by omega) (by simp)]
  rfl

theorem chain_sum [Field V] (L N g : Label → V) : ∀ (x : Label) (B : List Label) (a : V), L x = a + N x →
    List.IsChain (fun s t => L t = g s + N t) (x :: B) →
    ((x :: B).map L).sum = a + ((x :: B).map g).sum - g ((x :: B).getLast (by simp)) + ((x :: B).map N).sum
  | x, [], a, h, _ => by simp [h]
  | x, y :: B, a, h, hc => by
      rw [List.isChain_cons_cons] at hc
      have ih := chain_sum L N g y B (g x) hc.1 hc.2
      rw [List.getLast_cons (by simp), List.map_cons, List.sum_cons, ih]
      simp only [List.map_cons, List.sum_cons]
      rw [h]
      ring

theorem set_valid {W : Where.Env} {ρ : Point} (hρ : Valid W ρ) {d : String} {l : Label} (hl : l ∈ W.coords d) :
    Valid W (set ρ d l) := by
  intro x
  unfold Expr.set
  split
  · rename_i h
    rw [h]
    exact hl
  · exact hρ x

omit V in
theorem set_set (ρ : Point) (d : String) (l l' : Label) : set (set ρ d l) d l' = set ρ d l' := by
  funext x
  unfold Expr.set
  split <;> rfl

omit V in
theorem set_at (ρ : Point) (d : String) (l : Label) : (set ρ d l) d = l := by
  simp [Expr.set]

theorem sum_sub [Field V] (f g : Label → V) : ∀ l : List Label,
    (l.map (fun t => f t - g t)).sum = (l.map f).sum - (l.map g).sum
  | [] => by simp
  | a :: l => by
      simp only [List.map_cons, List.sum_cons, sum_sub f g l]
      ring

/-- A solution of the storage balance: at every time step of the model where it is built. -/
theorem storage_solved [Field V] [LE V] {W : Where.Env} {E : Expr.Env V} {pw : V → V → V} (S : Setting W E pw)
    (D : StorageData E) (hw : StorageInputs W) {enum : List String → List String} (henum : Traverses enum)
    {b : Arr (Option (Cell V))} (hb : buildConstraint W E enum balanceStorage = .ok b)
    {ρ : Point} (hρ : Valid W ρ) (hsol : Satisfied b ρ)
    (hin : InModel W ["nodes", "techs", "timesteps"] ρ) (hst : Stores W ρ) {v : V} (hv : Before W pw D ρ v) :
    D.level ρ = v + D.net ρ := by
  obtain ⟨h1, h2⟩ := C61_rule S D hw henum hb hρ
  have hne := h1.2 ⟨hin, hst⟩
  exact (hsol _ _).1 (h2 hne v hv)

/-- C62: over any consecutive time steps of which only the first may be the first of a cluster, what is left after the
last is what the first starts with, plus all charging, minus all discharging, minus all that is lost. -/
theorem C62_block [Field V] [LE V] {W : Where.Env} {E : Expr.Env V} {pw : V → V → V} (S : Setting W E pw)
    (D : StorageData E) (hw : StorageInputs W) {enum : List String → List String} (henum : Traverses enum)
    {b : Arr (Option (Cell V))} (hb : buildConstraint W E enum balanceStorage = .ok b)
    {ρ : Point} (hρ : Valid W ρ) (hloss : ∀ t, D.loss (set ρ "timesteps" t) = D.loss ρ)
    {x y : Label} {B pre post : List Label} (hT : W.coords "timesteps" = pre ++ (x :: B) ++ post)
    (hy : (x :: B).getLast? = some y)
    (hall : ∀ t ∈ x :: B, Satisfied b (set ρ "timesteps" t) ∧
      InModel W ["nodes", "techs", "timesteps"] (set ρ "timesteps" t) ∧ Stores W (set ρ "timesteps" t))
    (hcl : ∀ t ∈ B, ¬ Flag W "cluster_first_timestep" (set ρ "timesteps" t))
    {v : V} (hv : Before W pw D (set ρ "timesteps" x) v) :
    D.level (set ρ "timesteps" y) - D.lost pw (set ρ "timesteps" y) =
      v + sumSteps (x :: B) D.net ρ - sumSteps (x :: B) (D.lost pw) ρ := by
  have hnod := S.steps
  have hmem : ∀ t ∈ x :: B, t ∈ W.coords "timesteps" := by
    intro t ht
    rw [hT]
    simp only [List.mem_append]
    exact .inl (.inr ht)
  have hsolve : ∀ t ∈ x :: B, ∀ u, Before W pw D (set ρ "timesteps" t) u →
      D.level (set ρ "timesteps" t) = u + D.net (set ρ "timesteps" t) := by
    intro t ht u hu
    obtain ⟨h1, h2, h3⟩ := hall t ht
    exact storage_solved S D hw henum hb (set_valid hρ (hmem t ht)) h1 h2 h3 hu
  have hBnod : (x :: B).Nodup := by
    rw [hT] at hnod
    exact (List.nodup_append.1 (List.nodup_append.1 hnod).1).2.1
  have hchain : List.IsChain (fun s t => D.level (set ρ "timesteps" t) =
      pw (1 - D.loss ρ) (D.hours (set ρ "timesteps" s)) * D.level (set ρ "timesteps" s) +
        D.net (set ρ "timesteps" t)) (x :: B) := by
    have hc := rolled_chain (B := x :: B) hnod hT
    have hc' : List.IsChain (fun s t => rolled (W.coords "timesteps") 1 t = s ∧ t ∈ B) (x :: B) := by
      rw [List.isChain_iff_getElem] at hc ⊢
      intro i hi
      exact ⟨hc i hi, by simp⟩
    refine hc'.imp ?_
    rintro s t ⟨hst, htB⟩
    have ht : t ∈ x :: B := List.mem_cons_of_mem _ htB
    refine hsolve t ht _ (.inr (.inl ⟨?_, hcl t htB, ?_⟩))
    · rintro ⟨hf, _⟩
      unfold First at hf
      rw [set_at, hT] at hf
      cases pre with
      | nil =>
        simp only [List.nil_append, List.cons_append, List.head?_cons, Option.some.injEq] at hf
        subst hf
        exact (List.nodup_cons.1 hBnod).1 htB
      | cons z pre =>
        simp only [List.cons_append, List.head?_cons, Option.some.injEq] at hf
        subst hf
        rw [hT] at hnod
        simp only [List.cons_append, List.nodup_cons, List.mem_append] at hnod
        exact hnod.1 (.inl (.inr ht))
    · unfold previous
      rw [set_set, set_at, hst, hloss]
  have key := chain_sum (fun t => D.level (set ρ "timesteps" t)) (fun t => D.net (set ρ "timesteps" t))
    (fun s => pw (1 - D.loss ρ) (D.hours (set ρ "timesteps" s)) * D.level (set ρ "timesteps" s)) x B v
    (hsolve x (by simp) v hv) hchain
  have hlast : (x :: B).getLast (by simp) = y := by
    rw [List.getLast?_eq_some_getLast (by simp)] at hy
    exact Option.some.inj hy
  rw [hlast] at key
  have hlost : ∀ t, D.lost pw (set ρ "timesteps" t) = D.level (set ρ "timesteps" t) -
      pw (1 - D.loss ρ) (D.hours (set ρ "timesteps" t)) * D.level (set ρ "timesteps" t) := by
    intro t
    unfold StorageData.lost
    rw [hloss]
    ring
  have hsum : sumSteps (x :: B) (D.lost pw) ρ = ((x :: B).map (fun t => D.level (set ρ "timesteps" t))).sum -
      ((x :: B).map (fun s => pw (1 - D.loss ρ) (D.hours (set ρ "timesteps" s)) * D.level (set ρ "timesteps" s))).sum := by
    unfold sumSteps
    rw [← sum_sub]
    congr 1
    apply List.map_congr_left
    intro t _
    exact hlost t
  rw [hsum, key, hlost]
  unfold sumSteps
  ring

/-- C62: storage that is not cyclic: what is left after the last time step is the initial level plus all
charging, minus all discharging, minus all that is lost. -/
theorem C62_horizon [Field V] [LE V] {W : Where.Env} {E : Expr.Env V} {pw : V → V → V} (S : Setting W E pw)
    (D : StorageData E) (hw : StorageInputs W) {enum : List String → List String} (henum : Traverses enum)
    {b : Arr (Option (Cell V))} (hb : buildConstraint W E enum balanceStorage = .ok b)
    {ρ : Point} (hρ : Valid W ρ) (hloss : ∀ t, D.loss (set ρ "timesteps" t) = D.loss ρ)
    {x y : Label} (hx : (W.coords "timesteps").head? = some x) (hy : (W.coords "timesteps").getLast? = some y)
    (hall : ∀ t ∈ W.coords "timesteps", Satisfied b (set ρ "timesteps" t) ∧
      InModel W ["nodes", "techs", "timesteps"] (set ρ "timesteps" t) ∧ Stores W (set ρ "timesteps" t))
    (hcl : ∀ t ∈ W.coords "timesteps", ¬ Flag W "cluster_first_timestep" (set ρ "timesteps" t))
    (hcy : ¬ Flag W "cyclic_storage" (set ρ "timesteps" x)) :
    D.level (set ρ "timesteps" y) - D.lost pw (set ρ "timesteps" y) =
      D.init (set ρ "timesteps" x) * D.cap (set ρ "timesteps" x) +
        sumOver E "timesteps" D.net ρ - sumOver E "timesteps" (D.lost pw) ρ := by
  obtain ⟨B, hB⟩ : ∃ B, W.coords "timesteps" = x :: B := by
    cases h : W.coords "timesteps" with
    | nil => rw [h] at hx; cases hx
    | cons a B => rw [h] at hx; cases hx; exact ⟨B, rfl⟩
  have h := C62_block S D hw henum hb hρ hloss (pre := []) (post := []) (x := x) (y := y) (B := B)
    (by simp [hB]) (by rw [← hB]; exact hy) (by rw [← hB]; exact hall)
    (fun t ht => hcl t (by rw [hB]; simp [ht]))
    (.inl ⟨by unfold First; rw [set_at]; exact hx, hcy, rfl⟩)
  unfold sumOver
  rw [S.coords, hB]
  exact h

/-- C62: cyclic storage: all charging equals all discharging plus all that is lost. -/
theorem C62_cyclic [Field V] [LE V] {W : Where.Env} {E : Expr.Env V} {pw : V → V → V} (S : Setting W E pw)
    (D : StorageData E) (hw : StorageInputs W) {enum : List String → List String} (henum : Traverses enum)
    {b : Arr (Option (Cell V))} (hb : buildConstraint W E enum balanceStorage = .ok b)
    {ρ : Point} (hρ : Valid W ρ) (hloss : ∀ t, D.loss (set ρ "timesteps" t) = D.loss ρ)
    {x : Label} (hx : (W.coords "timesteps").head? = some x)
    (hall : ∀ t ∈ W.coords "timesteps", Satisfied b (set ρ "timesteps" t) ∧
      InModel W ["nodes", "techs", "timesteps"] (set ρ "timesteps" t) ∧ Stores W (set ρ "timesteps" t))
    (hcl : ∀ t ∈ W.coords "timesteps", ¬ Flag W "cluster_first_timestep" (set ρ "timesteps" t))
    (hcy : Flag W "cyclic_storage" (set ρ "timesteps" x)) :
    sumOver E "timesteps" D.net ρ = sumOver E "timesteps" (D.lost pw) ρ := by
  obtain ⟨B, hB⟩ : ∃ B, W.coords "timesteps" = x :: B := by
    cases h : W.coords "timesteps" with
    | nil => rw [h] at hx; cases hx
    | cons a B => rw [h] at hx; cases hx; exact ⟨B, rfl⟩
  have hr := rolled_head S.steps hB
  have h := C62_block S D hw henum hb hρ hloss (pre := []) (post := []) (x := x)
    (y := (x :: B).getLast (by simp)) (B := B)
    (by simp [hB]) (List.getLast?_eq_some_getLast (by simp)) (by rw [← hB]; exact hall)
    (fun t ht => hcl t (by rw [hB]; simp [ht]))
    (.inr (.inl ⟨fun h => h.2 hcy, hcl x (by rw [hB]; simp), rfl⟩))
  unfold sumOver
  rw [S.coords, hB]
  unfold previous at h
  rw [set_set, set_at, hr, hloss] at h
  unfold StorageData.lost at h
  rw [hloss] at h
  unfold sumSteps at h
  rw [sub_mul, one_mul, sub_sub_cancel, add_sub_assoc, left_eq_add, sub_eq_zero] at h
  exact h

/-- C62: with clustered days, the same holds within every cluster (but for the first, of storage that is not
cyclic). -/
theorem C62_cluster [Field V] [LE V] {W : Where.Env} {E : Expr.Env V} {pw : V → V → V} (S : Setting W E pw)
    (D : StorageData E) (hw : StorageInputs W) {enum : List String → List String} (henum : Traverses enum)
    {b : Arr (Option (Cell V))} (hb : buildConstraint W E enum balanceStorage = .ok b)
    {ρ : Point} (hρ : Valid W ρ) (hloss : ∀ t, D.loss (set ρ "timesteps" t) = D.loss ρ)
    {x y : Label} {B pre post : List Label} (hT : W.coords "timesteps" = pre ++ (x :: B) ++ post)
    (hy : (x :: B).getLast? = some y)
    (hall : ∀ t ∈ x :: B, Satisfied b (set ρ "timesteps" t) ∧
      InModel W ["nodes", "techs", "timesteps"] (set ρ "timesteps" t) ∧ Stores W (set ρ "timesteps" t))
    (hcl : Flag W "cluster_first_timestep" (set ρ "timesteps" x) ∧
      ∀ t ∈ B, ¬ Flag W "cluster_first_timestep" (set ρ "timesteps" t))
    {g : Arr (Option Label)} (hg : E.lookup "lookup_cluster_last_timestep" = some g)
    (hgy : g.at (set ρ "timesteps" x) = some y)
    (hcy : pre = [] → Flag W "cyclic_storage" (set ρ "timesteps" x)) :
    sumSteps (x :: B) D.net ρ = sumSteps (x :: B) (D.lost pw) ρ := by
  have hmemy : y ∈ W.coords "timesteps" := by
    rw [hT]
    have := List.mem_of_getLast? hy
    simp only [List.mem_append]
    exact .inl (.inr this)
  have hnf : ¬ (First W (set ρ "timesteps" x) ∧ ¬ Flag W "cyclic_storage" (set ρ "timesteps" x)) := by
    rintro ⟨hf, hn⟩
    cases pre with
    | nil => exact hn (hcy rfl)
    | cons z pre =>
      unfold First at hf
      have hnod := S.steps
      rw [set_at, hT] at hf
      rw [hT] at hnod
      simp only [List.cons_append, List.head?_cons, Option.some.injEq] at hf
      subst hf
      simp only [List.cons_append, List.nodup_cons, List.mem_append] at hnod
      exact hnod.1 (.inl (.inr (by simp)))
  have h := C62_block S D hw henum hb hρ hloss hT hy hall hcl.2
    (.inr (.inr ⟨hnf, hcl.1, g, y, hg, hgy, by rw [S.coords]; exact hmemy, rfl⟩))
  rw [set_set, hloss] at h
  unfold StorageData.lost at h
  rw [hloss] at h
  rw [sub_mul, one_mul, sub_sub_cancel, add_sub_assoc, left_eq_add, sub_eq_zero] at h
  exact h

/-- C62: nothing is lost without storage loss. -/
theorem C62_lossless [Field V] {E : Expr.Env V} {pw : V → V → V} (hp : ∀ h, pw 1 h = 1) (D : StorageData E)
    (ρ : Point) (h0 : D.loss ρ = 0) : D.lost pw ρ = 0 := by
  unfold StorageData.lost
  rw [h0, sub_zero, hp, sub_self, zero_mul]

/-- The equation of `set_storage_initial`. -/
def initialEquation [Field V] : Equation V Cond :=
  ⟨[("set_storage_initial", 0), ("final_step", 0)], [always, always],
    .cmp (bin (.sliced "storage" [("timesteps", .ref "final_step")]) .times
        (bin (bin (.num 1) .minus (.comp "storage_loss")) .pow
          (.sliced "timestep_resolution" [("timesteps", .ref "final_step")])))
      "==" (bin (.comp "storage_initial") .times (.comp "storage_cap")),
    [], [("final_step", .valAt "timesteps" (-1))]⟩

theorem parse_setStorageInitial [Field V] {enum : List String → List String} (henum : Traverses enum) :
    parseEquations enum (setStorageInitial (V := V)).defn = .ok [initialEquation] := by
  have h2 : enum ["final_step", "final_step"] = ["final_step"] := enum_same henum (by simp) (by simp)
  simp only [setStorageInitial, parseEquations, initial, List.zipIdx_cons, List.zipIdx_nil, List.map_cons, List.map_nil,
    extendAll, findSubs, subRefs, subRefsRest, List.append_nil, List.nil_append,
    extend, enum_nil henum, findSlices, sliceRefs, sliceRefsRest, sliceNames, bin, List.cons_append,
    List.filterMap_cons, List.filterMap_nil, List.flatMap_nil, h2, gather, List.lookup_cons, beq_self_eq_true, cases,
    product, List.flatMap_cons, addSlices, initialEquation]

/-- C62: where cyclic storage has an initial level, what is left after the last time step is the initial level,
and so is what the first time step starts with. -/
theorem C62_initial [Field V] [LE V] {W : Where.Env} {E : Expr.Env V} {pw : V → V → V} (S : Setting W E pw)
    (D : StorageData E) {enum : List String → List String} (henum : Traverses enum)
    {b : Arr (Option (Cell V))} (hb : buildConstraint W E enum setStorageInitial = .ok b)
    {ρ : Point} (hρ : Valid W ρ) {x y : Label} (hx : (W.coords "timesteps").head? = some x)
    (hy : (W.coords "timesteps").getLast? = some y)
    (hloss : ∀ t, D.loss (set ρ "timesteps" t) = D.loss ρ)
    (hdims : ∀ d ∈ ["nodes", "techs"], d ∈ W.matrix.dims ∨ d ∈ W.dims)
    (hst : ∃ σ, Valid W σ ∧ SameAlong ["nodes", "techs"] ρ σ ∧ W.matrix.at σ = true ∧
      (∃ a, W.result "storage" = some a ∧ a.at σ = true) ∧
      Where.Given (W.input "storage_initial").kind ((W.input "storage_initial").arr.at σ) ∧
      Flag W "cyclic_storage" σ)
    (hsol : Satisfied b ρ) :
    D.level (set ρ "timesteps" y) - D.lost pw (set ρ "timesteps" y) = D.init ρ * D.cap ρ ∧
    ∀ v, ¬ Flag W "cluster_first_timestep" (set ρ "timesteps" x) → Flag W "cyclic_storage" (set ρ "timesteps" x) →
      Before W pw D (set ρ "timesteps" x) v → v = D.init ρ * D.cap ρ := by
  have hes := parse_setStorageInitial (V := V) henum
  obtain ⟨h1, _, h3⟩ := C71_constraint S.wf (by simp [setStorageInitial]) hb hes hρ
  obtain ⟨σ, g1, g2, g3, g4, g5, g6⟩ := hst
  have hap : Applies W (setStorageInitial (V := V)) ρ initialEquation := by
    refine ⟨hdims, ⟨σ, g1, g2, g3, ?_⟩, ρ, hρ, fun _ _ => rfl, ?_⟩
    · have e1 := (truth_built (W := W) "storage" σ).2 g4
      have e2 := (truth_given (W := W) "storage_initial" σ).2 g5
      have e3 := (truth_isTrue (W := W) "cyclic_storage" σ).2 g6
      exact ⟨⟨e1, e2⟩, e3⟩
    · intro w hw
      simp only [initialEquation, List.mem_cons, List.not_mem_nil, or_false] at hw
      rcases hw with rfl | rfl <;> simp
  obtain ⟨l, o, r, hbody, hval⟩ := h3 _ (by simp) hap
  simp only [initialEquation, Body.cmp.injEq] at hbody
  obtain ⟨rfl, rfl, rfl⟩ := hbody
  have hlab : Expr.labelOf E (fun n => List.lookup n [("final_step", SliceDef.valAt "timesteps" (-1))]) ρ
      (.ref "final_step") = some y := by
    simp only [Expr.labelOf, List.lookup_cons, beq_self_eq_true]
    rw [if_pos (by decide), S.coords, ← hy]
    rw [← List.head?_reverse, List.head?_eq_getElem?]
    rfl
  have hmem : y ∈ E.coords "timesteps" := by
    rw [S.coords]
    exact List.mem_of_getLast? hy
  have hcell := hval
    (by simp [Simple, Expr.inline, Expr.inlineRest, Ok, OkRest, Apart, ApartRest, bin, initialEquation])
    (by simp [Simple, Expr.inline, Expr.inlineRest, Ok, OkRest, Apart, ApartRest, bin, initialEquation])
  have e1 : value E (initialEquation (V := V)) (bin (.sliced "storage" [("timesteps", .ref "final_step")]) .times
        (bin (bin (.num 1) .minus (.comp "storage_loss")) .pow
          (.sliced "timestep_resolution" [("timesteps", .ref "final_step")]))) ρ =
      some (D.level (set ρ "timesteps" y) * pw (1 - D.loss ρ) (D.hours (set ρ "timesteps" y))) := by
    unfold value
    simp only [inline_bin, Expr.inline, initialEquation]
    rw [mean_bin, mean_bin, mean_bin, mean_sliced D.isLevel hlab hmem, mean_sliced D.isHours hlab hmem, mean_comp D.isLoss]
    simp only [mean, S.numbers.minus, S.numbers.pow, S.numbers.times]
  have e2 : value E (initialEquation (V := V)) (bin (.comp "storage_initial") .times (.comp "storage_cap")) ρ =
      some (D.init ρ * D.cap ρ) := by
    unfold value
    simp only [inline_bin, Expr.inline, initialEquation]
    rw [mean_bin, mean_comp D.isInit, mean_comp D.isCap, S.numbers.times]
  rw [e1, e2] at hcell
  have hkey := (hsol _ _).1 hcell
  have hfirst : D.level (set ρ "timesteps" y) - D.lost pw (set ρ "timesteps" y) = D.init ρ * D.cap ρ := by
    rw [← hkey]
    unfold StorageData.lost
    rw [hloss]
    ring
  refine ⟨hfirst, ?_⟩
  intro v hcl hcy hv
  obtain ⟨B, hB⟩ : ∃ B, W.coords "timesteps" = x :: B := by
    cases h : W.coords "timesteps" with
    | nil => rw [h] at hx; cases hx
    | cons a B => rw [h] at hx; cases hx; exact ⟨B, rfl⟩
  rcases hv with ⟨_, k, _⟩ | ⟨_, _, hv⟩ | ⟨_, k, _⟩
  · exact absurd hcy k
  · rw [hv, ← hkey]
    unfold previous
    have hl : (x :: B).getLast (by simp) = y := by
      rw [hB, List.getLast?_eq_some_getLast (by simp)] at hy
      exact Option.some.inj hy
    rw [set_set, set_at, rolled_head S.steps hB, hl, hloss]
    ring
  · exact absurd k hcl

end BaseMath
end Calliope
