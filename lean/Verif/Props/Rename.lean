import Verif.Proofs.RenameProblem
import Verif.Props.Linear

/-!
# C120: names and order of nodes, technologies, carriers and cost classes
-/

namespace Calliope
namespace Rename

open Grid Expr Build BaseMath Assemble Infix MathText
open Linear (Feasible Satisfied Within IsObjective SamePlace)
open Units (Cheapest)

section General

variable {V : Type} [Field V] [LinearOrder V] {R : Renaming} {s s' : State V} {g g' : Given V} {M : Math V} {P P' : Problem V}

theorem forall₂_mem {α β : Type} {T : α → β → Prop} {l : List α} {l' : List β} (h : List.Forall₂ T l l') :
    (∀ a ∈ l, ∃ b ∈ l', T a b) ∧ (∀ b ∈ l', ∃ a ∈ l, T a b) := by
  induction h with
  | nil => simp
  | cons h _ ih =>
    refine ⟨fun a ha => ?_, fun b hb => ?_⟩
    · rcases List.mem_cons.1 ha with rfl | ha
      · exact ⟨_, List.mem_cons_self, h⟩
      · obtain ⟨b, hb, hr⟩ := ih.1 a ha
        exact ⟨b, List.mem_cons_of_mem _ hb, hr⟩
    · rcases List.mem_cons.1 hb with rfl | hb
      · exact ⟨_, List.mem_cons_self, h⟩
      · obtain ⟨a, ha, hr⟩ := ih.2 b hb
        exact ⟨a, List.mem_cons_of_mem _ ha, hr⟩

theorem forall₂_get {α β : Type} {T : α → β → Prop} {l : List α} {l' : List β} (h : List.Forall₂ T l l') :
    ∀ i : Nat, Option.Rel T l[i]? l'[i]? := by
  induction h with
  | nil => exact fun i => by simpa using Option.Rel.none
  | cons h _ ih =>
    intro i
    cases i with
    | zero => exact .some h
    | succ i => simpa using ih i

theorem objective_same (h : Problems R s.W.coords P P') (i : Nat) (v : V) : IsObjective P i v ↔ IsObjective P' i v := by
  have hr := forall₂_get h.objectives i
  simp only [IsObjective]
  generalize P.objectives[i]? = a at hr
  generalize P'.objectives[i]? = b at hr
  cases hr with
  | none => simp
  | @some a b hr =>
    have := hr.1.2 (fun _ => "") (by simp [hr.2])
    simp only [Arr.at, hr.1.1, hr.2, List.map_nil] at this
    simp [this]

/-- Both problems are built, or neither. -/
theorem built_same (hM : Nameless R M) (hs : Renamed R s s') (hl : Limited M s) (hg : Retold R s.W.coords M g g') :
    (∀ P, assemble g M s = .ok P → ∃ P', assemble g' M s' = .ok P' ∧ Problems R s.W.coords P P') ∧
    (∀ P', assemble g' M s' = .ok P' → ∃ P, assemble g M s = .ok P ∧ Problems R s.W.coords P P') := by
  rcases (assemble_same hM hs hl hg).cases with ⟨e, e1, e2⟩ | ⟨Q, Q', e1, e2, h⟩
  · rw [e1, e2]
    refine ⟨?_, ?_⟩ <;> intro _ h <;> cases h
  · rw [e1, e2]
    refine ⟨fun P hP => ?_, fun P hP => ?_⟩
    · cases hP
      exact ⟨_, rfl, h⟩
    · cases hP
      exact ⟨_, rfl, h⟩

/-- The bounds of variables, before and after. -/
theorem bounds_same (hM : Nameless R M) (hs : Renamed R s s') (hl : Limited M s) (hg : Retold R s.W.coords M g g')
    {before after : List (Variable V)} {v : Variable V} (hv : M.vars = before ++ v :: after) :
    Units.Both (fun b b' => Same R s.W.coords b b' ∧ (b.dims = v.foreach ∨ b = scalar none))
      (match addAll (addVariable g) s before with | .ok q => buildVariable q.W q.E v | .error e => .error e)
      (match addAll (addVariable g') s' before with | .ok q => buildVariable q.W q.E v | .error e => .error e) := by
  have hmem : ∀ w ∈ before, w ∈ M.vars := fun w hw => hv ▸ List.mem_append_left _ hw
  have hvm : v ∈ M.vars := hv ▸ List.mem_append_right _ List.mem_cons_self
  rcases (addAll_same (T := fun x x' => States R s.W.coords x x' ∧ Limited M x) (add := addVariable g)
    (add' := addVariable g') before ⟨states_start hs, hl⟩
    fun w hw x x' h => addVariable_same h.1 hg h.2 (hmem w hw) (hM.vars w (hmem w hw))).cases
    with ⟨y, e1, e2⟩ | ⟨q, q', e1, e2, hq⟩
  · simp only [e1, e2]; exact rfl
  · simp only [e1, e2]
    exact buildVariable_same hq.1 (fun v hv n hn => (hq.2 v hv n hn).2) hvm (hM.vars v hvm)

/-- Plans of two problems with the same items under different names. -/
theorem plan_of (hcov : Covers R s.W.coords s'.W.coords) (hnd : ∀ v ∈ M.vars, v.foreach.Nodup)
    (hbounds : ∀ before v after, M.vars = before ++ v :: after →
      Units.Both (fun b b' => Same R s.W.coords b b' ∧ (b.dims = v.foreach ∨ b = scalar none))
        (match addAll (addVariable g) s before with | .ok q => buildVariable q.W q.E v | .error e => .error e)
        (match addAll (addVariable g') s' before with | .ok q => buildVariable q.W q.E v | .error e => .error e))
    (hg : Retold R s.W.coords M g g') (hP : Problems R s.W.coords P P') (e1 : assemble g M s = .ok P) (e2 : assemble g' M s' = .ok P') :
    Feasible g M s P ↔ Feasible g' M s' P' := by
  have value : ∀ {before after v b b'}, M.vars = before ++ v :: after →
      Same R s.W.coords b b' ∧ (b.dims = v.foreach ∨ b = scalar (none : Option (Limits V))) →
      ∀ c ∈ cells s.W.coords b.dims, ∀ l, b.val c = some l →
        g'.x v.name (b.dims.map (R.move (override (fun _ => "") b.dims c))) = g.x v.name c := by
    intro before after v b b' hv hb c hc l hbl
    have hvm : v ∈ M.vars := hv ▸ List.mem_append_right _ List.mem_cons_self
    rcases hb.2 with hd | hd
    · have := hg.x v hvm (override (fun _ => "") b.dims c) fun d hd' => mem_of_cells hc d (hd ▸ hd')
      rw [← hd] at this
      rw [this, map_override _ _ _ (hd ▸ hnd v hvm) (length_of_mem_cells hc)]
    · subst hd
      cases hbl
  have nodup : ∀ {before after v b}, M.vars = before ++ v :: after →
      (b.dims = v.foreach ∨ b = scalar (none : Option (Limits V))) → b.dims.Nodup := by
    intro before after v b hv hb
    rcases hb with hb | hb
    · rw [hb]
      exact hnd v (hv ▸ List.mem_append_right _ List.mem_cons_self)
    · rw [hb]
      exact List.nodup_nil
  constructor
  · intro h
    refine ⟨e2, ?_, ?_⟩
    · intro a' ha' c' hc' k hk
      obtain ⟨a, ha, hr⟩ := (forall₂_mem hP.constraints).2 a' ha'
      obtain ⟨h1, h2⟩ := cell_same hcov hr.1 hr.2
      obtain ⟨c, hc, rfl⟩ := h2 c' hc'
      exact h.constraints a ha c hc k ((h1 c hc).2.1 ▸ hk)
    · intro before v after q' hv hq' b' hb' c' hc' l hl'
      have hB := hbounds _ _ _ hv
      rw [hq'] at hB
      simp only [hb'] at hB
      rcases hB.cases with ⟨y, _, e⟩ | ⟨b, d, e3, e4, hb⟩
      · cases e
      cases e4
      split at e3
      · rename_i q hq
        obtain ⟨h1, h2⟩ := cell_same hcov hb.1 (nodup hv hb.2)
        obtain ⟨c, hc, rfl⟩ := h2 c' hc'
        rw [(h1 c hc).2.1] at hl'
        rw [value hv hb c hc l hl']
        exact h.bounds before v after q hv hq b e3 c hc l hl'
      · cases e3
  · intro h
    refine ⟨e1, ?_, ?_⟩
    · intro a ha c hc k hk
      obtain ⟨a', ha', hr⟩ := (forall₂_mem hP.constraints).1 a ha
      obtain ⟨h1, _⟩ := cell_same hcov hr.1 hr.2
      exact h.constraints a' ha' _ (h1 c hc).1 k ((h1 c hc).2.1.trans hk)
    · intro before v after q hv hq b hb c hc l hbl
      have hB := hbounds _ _ _ hv
      rw [hq] at hB
      simp only [hb] at hB
      rcases hB.cases with ⟨y, e, _⟩ | ⟨d, b', e3, e4, hb⟩
      · cases e
      cases e3
      split at e4
      · rename_i q' hq'
        obtain ⟨h1, _⟩ := cell_same hcov hb.1 (nodup hv hb.2)
        rw [← value hv hb c hc l hbl]
        exact h.bounds before v after q' hv hq' b' e4 _ (h1 c hc).1 l ((h1 c hc).2.1.trans hbl)
      · cases e4

omit [LinearOrder V] [Field V] in
theorem nameless_nodup (hM : Nameless R M) : ∀ v ∈ M.vars, v.foreach.Nodup := by
  intro v hv
  have hn := hM.vars v hv
  simp only [variableOk, Bool.and_eq_true, decide_eq_true_eq] at hn
  exact hn.1

theorem plan_same (hM : Nameless R M) (hs : Renamed R s s') (hl : Limited M s) (hg : Retold R s.W.coords M g g')
    (hP : Problems R s.W.coords P P') (e1 : assemble g M s = .ok P) (e2 : assemble g' M s' = .ok P') :
    Feasible g M s P ↔ Feasible g' M s' P' := by
  exact plan_of (covers hs.labels) (nameless_nodup hM) (fun _ _ _ hv => bounds_same hM hs hl hg hv) hg hP e1 e2

/-- C120: if the math names no label of the free dimensions and does not use their order, then the same decisions under new names
are a plan for the model under new names exactly if they were a plan, and each objective has the same value. -/
theorem C120_plans (hM : Nameless R M) (hs : Renamed R s s') (hl : Limited M s) (hg : Retold R s.W.coords M g g') :
    ((∃ P, Feasible g M s P) ↔ ∃ P', Feasible g' M s' P') ∧
    ∀ i v, (∃ P, Feasible g M s P ∧ IsObjective P i v) ↔ ∃ P', Feasible g' M s' P' ∧ IsObjective P' i v := by
  obtain ⟨h1, h2⟩ := built_same hM hs hl hg
  refine ⟨⟨?_, ?_⟩, fun i v => ⟨?_, ?_⟩⟩
  · rintro ⟨P, hP⟩
    obtain ⟨P', e, h⟩ := h1 P hP.builds
    exact ⟨P', (plan_same hM hs hl hg h hP.builds e).1 hP⟩
  · rintro ⟨P', hP⟩
    obtain ⟨P, e, h⟩ := h2 P' hP.builds
    exact ⟨P, (plan_same hM hs hl hg h e hP.builds).2 hP⟩
  · rintro ⟨P, hP, hi⟩
    obtain ⟨P', e, h⟩ := h1 P hP.builds
    exact ⟨P', (plan_same hM hs hl hg h hP.builds e).1 hP, (objective_same h i v).1 hi⟩
  · rintro ⟨P', hP, hi⟩
    obtain ⟨P, e, h⟩ := h2 P' hP.builds
    exact ⟨P, (plan_same hM hs hl hg h e hP.builds).2 hP, (objective_same h i v).2 hi⟩

/-- C120: constraints have the same items under new names, and both sides of each have the same values. -/
theorem C120_constraints (hM : Nameless R M) (hs : Renamed R s s') (hl : Limited M s) (hg : Retold R s.W.coords M g g')
    (e1 : assemble g M s = .ok P) (e2 : assemble g' M s' = .ok P') :
    List.Forall₂ (fun a a' => a'.dims = a.dims ∧ ∀ ρ, (∀ d ∈ a.dims, ρ d ∈ s.W.coords d) → a'.at (R.move ρ) = a.at ρ)
      P.constraints P'.constraints := by
  obtain ⟨Q, e, h⟩ := (built_same hM hs hl hg).1 P e1
  rw [e2] at e
  cases e
  exact h.constraints.imp fun a b h => h.1

/-- C120: a problem can be built under new names exactly if it could be built, with the same error otherwise. -/
theorem C120_fails (hM : Nameless R M) (hs : Renamed R s s') (hl : Limited M s) (hg : Retold R s.W.coords M g g') (e : Err) :
    assemble g M s = .error e ↔ assemble g' M s' = .error e := by
  rcases (assemble_same hM hs hl hg).cases with ⟨e', e1, e2⟩ | ⟨a, b, e1, e2, _⟩
  · rw [e1, e2]
  · rw [e1, e2]
    constructor <;> intro h <;> cases h

/-! ### Best plans -/

theorem find_name {l : List (Variable V)} (hn : (l.map (fun v => v.name)).Nodup) {v : Variable V} (hv : v ∈ l) :
    l.find? (fun u => u.name = v.name) = some v := by
  induction l with
  | nil => cases hv
  | cons u l ih =>
    simp only [List.map_cons, List.nodup_cons] at hn
    rcases List.mem_cons.1 hv with rfl | hv
    · simp
    · have : u.name ≠ v.name := fun e => hn.1 (e ▸ List.mem_map_of_mem hv)
      rw [List.find?_cons_of_neg (by simpa using this)]
      exact ih hn.2 hv

/-- The same decisions under the old names. -/
theorem retold_back (hD : Distinct M) (hM : ∀ v ∈ M.vars, v.foreach.Nodup) (coords : String → List Label) (h' : Given V) :
    ∃ h : Given V, h.default = h'.default ∧ h.enum = h'.enum ∧ Retold R coords M h h' := by
  refine ⟨⟨fun n c => match M.vars.find? (fun u => u.name = n) with
    | some v => h'.x n (v.foreach.map (R.move (override (fun _ => "") v.foreach c)))
    | none => 0, h'.default, h'.enum⟩, rfl, rfl, ⟨fun v hv ρ _ => ?_, rfl, rfl⟩⟩
  simp only [find_name hD hv]
  congr 1
  refine List.map_congr_left fun d hd => ?_
  have := map_override (fun _ => "") v.foreach (v.foreach.map ρ) (hM v hv) (by simp)
  have := List.map_inj_left.1 this d hd
  simp only [Renaming.move, this]

theorem inj_of {d : String} {coords coords' : String → List Label} (hc : Relabelled R coords coords') (hn : (coords' d).Nodup)
    {l m : Label} (hl : l ∈ coords d) (hm : m ∈ coords d) (h : R.of d l = R.of d m) : l = m :=
  List.inj_on_of_nodup_map ((hc.moved d).nodup_iff.1 hn) hl hm h

/-- The same decisions under the new names. -/
theorem retold_forth (hD : Distinct M) {coords coords' : String → List Label} (hc : Relabelled R coords coords')
    (hn : ∀ d, (coords' d).Nodup) (h : Given V) :
    ∃ h' : Given V, h'.default = h.default ∧ h'.enum = h.enum ∧ Retold R coords M h h' := by
  classical
  refine ⟨⟨fun n c => match M.vars.find? (fun u => u.name = n) with
    | some v => if hp : ∃ ρ : Point, (∀ d ∈ v.foreach, ρ d ∈ coords d) ∧ c = v.foreach.map (R.move ρ)
      then h.x n (v.foreach.map hp.choose) else 0
    | none => 0, h.default, h.enum⟩, rfl, rfl, ⟨fun v hv ρ hρ => ?_, rfl, rfl⟩⟩
  simp only [find_name hD hv]
  have hp : ∃ σ : Point, (∀ d ∈ v.foreach, σ d ∈ coords d) ∧ v.foreach.map (R.move ρ) = v.foreach.map (R.move σ) :=
    ⟨ρ, hρ, rfl⟩
  rw [dif_pos hp]
  congr 1
  refine List.map_congr_left fun d hd => ?_
  exact inj_of hc (hn d) (hp.choose_spec.1 d hd) (hρ d hd) (List.map_inj_left.1 hp.choose_spec.2 d hd).symm

/-- C120: so the best plan is the best plan under new names, as long as different labels get different names. -/
theorem C120_best (hM : Nameless R M) (hD : Distinct M) (hs : Renamed R s s') (hn : ∀ d, (s'.W.coords d).Nodup)
    (hl : Limited M s) (hg : Retold R s.W.coords M g g') (i : Nat) : Cheapest g M s i ↔ Cheapest g' M s' i := by
  constructor
  · rintro ⟨P, v, hP, hv, best⟩
    obtain ⟨P', hP', hv'⟩ := ((C120_plans hM hs hl hg).2 i v).1 ⟨P, hP, hv⟩
    refine ⟨P', v, hP', hv', fun h' Q' w hh hQ' hw => ?_⟩
    obtain ⟨h, h1, h2, hr⟩ := retold_back hD (nameless_nodup hM) s.W.coords h'
    obtain ⟨Q, hQ, hw⟩ := ((C120_plans hM hs hl hr).2 i w).2 ⟨Q', hQ', hw⟩
    refine best h Q w ⟨?_, ?_⟩ hQ hw
    · rw [h1, hh.default, hg.default]
    · rw [h2, hh.enum, hg.enum]
  · rintro ⟨P', v, hP', hv', best⟩
    obtain ⟨P, hP, hv⟩ := ((C120_plans hM hs hl hg).2 i v).2 ⟨P', hP', hv'⟩
    refine ⟨P, v, hP, hv, fun h Q w hh hQ hw => ?_⟩
    obtain ⟨h', h1, h2, hr⟩ := retold_forth hD hs.labels hn h
    obtain ⟨Q', hQ', hw⟩ := ((C120_plans hM hs hl hr).2 i w).1 ⟨Q, hQ, hw⟩
    refine best h' Q' w ⟨?_, ?_⟩ hQ' hw
    · rw [h1, hh.default, hg.default]
    · rw [h2, hh.enum, hg.enum]

end General

/-! ### The shipped math -/

/-- New names of nodes, technologies, carriers and cost classes. -/
def places (of : String → Label → Label) : Renaming where
  of := of
  free d := ["nodes", "techs", "carriers", "costs"].contains d
  held := []
  odd := []

def namelessB (M : Math Rat) : Bool :=
  M.vars.all (variableOk (places fun _ l => l)) && M.globals.all (componentOk (places fun _ l => l)) &&
  M.constraints.all (componentOk (places fun _ l => l)) &&
  M.objectives.all (fun c => componentOk (places fun _ l => l) c && decide (c.foreach = []))

section Any

variable {V : Type} {R : Renaming} {of : String → Label → Label}

theorem sliceOk_any (d : SliceDef) : sliceOk { R with of := of } d = sliceOk R d := by
  cases d <;> rfl

mutual
theorem exOk_any : ∀ t : Ex V, exOk { R with of := of } t = exOk R t
  | .num _ | .comp _ | .sub _ | .sliced _ _ => rfl
  | .sign _ t | .sum t _ | .reduceCarrier t _ | .roll t _ | .groupSum t _ _ | .groupDatetime t _ _ | .sumNextN t _ _
  | .select t _ => by simp only [exOk, exOk_any t] <;> rfl
  | .cond t c => by simp only [exOk, exOk_any t, exOk_any c]
  | .chain t r => by simp only [exOk, exOk_any t, restOk_any r]
theorem restOk_any : ∀ r : ExRest V, restOk { R with of := of } r = restOk R r
  | .one _ t => by simp only [restOk, exOk_any t]
  | .more _ t r => by simp only [restOk, exOk_any t, restOk_any r]
end

theorem lhsOk_any : ∀ l : Where.Lhs, lhsOk { R with of := of } l = lhsOk R l
  | .op _ l r => by simp only [lhsOk, lhsOk_any l, lhsOk_any r]
  | .dim _ => rfl
  | .valAt _ _ => rfl
  | .input _ => rfl
  | l => by cases l <;> first | rfl | simp [lhsOk, lhsOk_any]

theorem leafOk_any (l : Where.Leaf) : leafOk { R with of := of } l = leafOk R l := by
  cases l <;> first | rfl | skip
  rename_i l o r
  have hd : dateOk { R with of := of } l o r = dateOk R l o r := by
    cases l <;> cases o <;> cases r <;> rfl
  simp only [leafOk, lhsOk_any (R := R) l, hd]
  cases r <;> rfl

mutual
theorem condOk_any : ∀ t : Tree Where.Op Where.Leaf, condOk { R with of := of } t = condOk R t
  | .atom l => by simp only [condOk]; exact leafOk_any l
  | .pre _ t => by simp only [condOk, condOk_any t]
  | .chain t r => by simp only [condOk, condOk_any t, condRestOk_any r]
theorem condRestOk_any : ∀ r : Rest Where.Op Where.Leaf, condRestOk { R with of := of } r = condRestOk R r
  | .one _ t => by simp only [condRestOk, condOk_any t]
  | .more _ t r => by simp only [condRestOk, condOk_any t, condRestOk_any r]
end

theorem bodyOk_any (b : Expand.Body V) : bodyOk { R with of := of } b = bodyOk R b := by
  cases b <;> simp only [bodyOk, exOk_any (R := R)]

theorem sliceFits_any (n : String) (d : SliceDef) : sliceFits { R with of := of } n d = sliceFits R n d := by
  simp only [sliceFits, sliceOk_any (R := R) d]

theorem sliceDim_any (d : SliceDef) : sliceDim { R with of := of } d = sliceDim R d := by
  cases d <;> rfl

theorem within_any (c : Component V) : Renaming.within { R with of := of } c = { R.within c with of := of } := by
  simp only [Renaming.within, sliceDim_any]

theorem componentOk_any (c : Component V) : componentOk { R with of := of } c = componentOk R c := by
  simp only [componentOk, within_any, condOk_any (R := R), bodyOk_any (R := R.within c), exOk_any (R := R.within c),
    sliceFits_any (R := R.within c)]
  have h1 : condOk { R with of := of } = condOk R := funext condOk_any
  rw [h1]

theorem variableOk_any (v : Variable V) : variableOk { R with of := of } v = variableOk R v := by
  simp only [variableOk, condOk_any (R := R) v.top]

end Any

theorem namelessB_sound {M : Math Rat} (h : namelessB M = true) (of : String → Label → Label) : Nameless (places of) M := by
  simp only [namelessB, Bool.and_eq_true, List.all_eq_true, decide_eq_true_eq] at h
  refine ⟨fun v hv => ?_, fun c hc => ?_, fun c hc => ?_, fun c hc => ⟨?_, (h.2 c hc).2⟩⟩
  · exact (variableOk_any (R := places fun _ => id) v).trans (h.1.1.1 v hv)
  · exact (componentOk_any (R := places fun _ => id) c).trans (h.1.1.2 c hc)
  · exact (componentOk_any (R := places fun _ => id) c).trans (h.1.2 c hc)
  · exact (componentOk_any (R := places fun _ => id) c).trans (h.2 c hc).1

instance (M : Math Rat) : Decidable (Distinct M) := inferInstanceAs (Decidable (List.Nodup _))

/-- C120: the base math names no node, technology, carrier or cost class, and does not use their order. -/
theorem C120_base : ∃ M, (buildMath shipped (priority (chars! "base") [])).bind File.read = some M ∧
    Distinct (ofRead M) ∧ ∀ of, Nameless (places of) (ofRead M) :=
  ⟨_, C103_base, by decide +kernel, namelessB_sound (by decide +kernel)⟩

theorem C120_operate : ∃ M, (buildMath shipped (priority (chars! "operate") [])).bind File.read = some M ∧
    Distinct (ofRead M) ∧ ∀ of, Nameless (places of) (ofRead M) :=
  ⟨_, C103_operate, by decide +kernel, namelessB_sound (by decide +kernel)⟩

theorem C120_spores : ∃ M, (buildMath shipped (priority (chars! "spores") [])).bind File.read = some M ∧
    Distinct (ofRead M) ∧ ∀ of, Nameless (places of) (ofRead M) :=
  ⟨_, C103_spores, by decide +kernel, namelessB_sound (by decide +kernel)⟩

theorem C120_inter_cluster :
    ∃ M, (buildMath shipped (priority (chars! "base") [chars! "storage_inter_cluster"])).bind File.read = some M ∧
      Distinct (ofRead M) ∧ ∀ of, Nameless (places of) (ofRead M) :=
  ⟨_, C103_inter_cluster, by decide +kernel, namelessB_sound (by decide +kernel)⟩

theorem C120_milp : ∃ M, (buildMath shipped (priority (chars! "base") [chars! "milp"])).bind File.read = some M ∧
    Distinct (ofRead M) ∧ ∀ of, Nameless (places of) (ofRead M) :=
  ⟨_, C103_milp, by decide +kernel, namelessB_sound (by decide +kernel)⟩

/-! ### A small problem -/

section Demo

open Linear (plan holdsB holdsB_sound objectiveB objectiveB_sound)

/-- Technologies with a limit each. -/
def twoMini (labels : List Label) (limit : List Label → Rat) : Mini where
  labels := [("techs", labels)]
  data := [("limit", ["techs"], limit), ("demand", [], fun _ => 5)]
  lookups := []
  inputs := [("limit", ⟨.number, ⟨["techs"], fun c => .num (limit c)⟩, .nan⟩), ("demand", ⟨.number, scalar (.num 5), .nan⟩)]
  results := []
  along := ["techs"]
  items := labels.map (fun l => [l])

def twoState (labels : List Label) (limit : List Label → Rat) : State Rat := ⟨(twoMini labels limit).W, (twoMini labels limit).E⟩

/-- `a` can do 2, `b` can do 1. -/
def oldState : State Rat := twoState ["a", "b"] (fun c => if c = ["a"] then 2 else 1)

/-- `a` is now `wind`, `b` is now `pv`, which comes first. -/
def newState : State Rat := twoState ["pv", "wind"] (fun c => if c = ["wind"] then 2 else 1)

def demoNames (d : String) (l : Label) : Label :=
  if d = "techs" then if l = "a" then "wind" else if l = "b" then "pv" else l else l

def oldPlan : Given Rat := ⟨fun _ c => if c = ["a"] then 2 else 1, fun _ => none, List.dedup⟩

def newPlan : Given Rat := ⟨fun _ c => if c = ["wind"] then 2 else 1, fun _ => none, List.dedup⟩

theorem demo_nameless : Nameless (places demoNames) demoMath := namelessB_sound (by decide +kernel) _

theorem techs_old {ρ : Point} (h : ρ "techs" ∈ oldState.W.coords "techs") : ρ "techs" = "a" ∨ ρ "techs" = "b" := by
  have : oldState.W.coords "techs" = ["a", "b"] := rfl
  rw [this] at h
  simpa using h

theorem demo_limit {α : Type} (f : Rat → α) : Same (places demoNames) oldState.W.coords
    ⟨["techs"], fun c => f (if c = ["a"] then 2 else 1)⟩ ⟨["techs"], fun c => f (if c = ["wind"] then 2 else 1)⟩ := by
  refine ⟨rfl, fun ρ hρ => ?_⟩
  rcases techs_old (hρ "techs" (by simp)) with h | h <;> simp [Arr.at, Renaming.move, places, demoNames, h]

theorem demo_coords {d : String} (h : d ≠ "techs") : newState.W.coords d = oldState.W.coords d := by
  show (twoMini _ _).coords d = (twoMini _ _).coords d
  simp [Mini.coords, twoMini, List.lookup, beq_false_of_ne h]

theorem demo_inputs (n : String) : n = "limit" ∨ newState.W.input n = oldState.W.input n ∧ (oldState.W.input n).arr.dims = [] := by
  by_cases h : n = "limit"
  · exact .inl h
  · right
    by_cases h' : n = "demand"
    · subst h'
      exact ⟨rfl, rfl⟩
    · simp [newState, oldState, twoState, twoMini, Mini.W, List.lookup, beq_false_of_ne h, beq_false_of_ne h', scalar]

theorem same_none {α : Type} {a : Arr α} (h : a.dims = []) : Same (places demoNames) oldState.W.coords a a :=
  ⟨rfl, fun ρ _ => by simp [Arr.at, h]⟩

theorem demo_renamed : Renamed (places demoNames) oldState newState where
  labels := by
    refine ⟨fun d hd => ?_, fun d => ?_, fun d hd => by cases hd⟩
    · have h : d ≠ "techs" := by
        rintro rfl
        cases hd
      exact ⟨demo_coords h, fun l => by simp [places, demoNames, h]⟩
    · by_cases h : d = "techs"
      · subst h
        show ["pv", "wind"].Perm ["wind", "pv"]
        exact List.Perm.swap _ _ _
      · rw [demo_coords h]
        have : (places demoNames).of d = id := by
          funext l
          simp [places, demoNames, h]
        rw [this, List.map_id]
  ecoords := ⟨rfl, rfl⟩
  dims := rfl
  config := rfl
  arith := rfl
  matrix := by
    refine ⟨rfl, fun ρ hρ => ?_⟩
    have hρ := techs_old (hρ "techs" (by simp [oldState, twoState, twoMini, Mini.W]))
    rcases hρ with h | h <;>
      simp [Arr.at, oldState, newState, twoState, twoMini, Mini.W, Renaming.move, places, demoNames, h]
  kind n _ := by
    rcases demo_inputs n with rfl | h
    · rfl
    · rw [h.1]
  default n _ := by
    rcases demo_inputs n with rfl | h
    · rfl
    · rw [h.1]
  input n _ _ := by
    rcases demo_inputs n with rfl | h
    · exact demo_limit _
    · rw [h.1]
      exact same_none h.2
  held n _ := by
    rcases demo_inputs n with rfl | h
    · refine ⟨rfl, fun ρ hρ => ?_⟩
      have h := (demo_limit Where.Val.num).2 ρ hρ
      show NameOrSame _ (Arr.at (Arr.mk ["techs"] fun c => Where.Val.num (if c = ["wind"] then 2 else 1)) _)
      rw [h]
      exact .same _
    · rw [h.1]
      refine ⟨rfl, fun ρ hρ => ?_⟩
      rw [(same_none h.2).2 ρ hρ]
      exact .same _
  result n := .none
  number n := by
    have h1 : oldState.W.number n = none := by
      show (twoMini _ _).number n = none
      simp [Mini.number, twoMini]
    have h2 : newState.W.number n = none := by
      show (twoMini _ _).number n = none
      simp [Mini.number, twoMini]
    rw [h1, h2]
    exact .none
  sums n over := .none
  isDim := rfl
  period := rfl
  op := rfl
  neg := rfl
  truthy := rfl
  lookup n _ := .none
  dates _ _ h := by cases h
  carrier n := .none
  comp n := by
    by_cases h : n = "limit"
    · subst h
      exact .some ⟨rfl, demo_limit some⟩
    · by_cases h' : n = "demand"
      · subst h'
        exact .some ⟨rfl, same_none rfl⟩
      · have h1 : oldState.E.comp n = none := by
          simp [oldState, twoState, twoMini, Mini.E, List.lookup, beq_false_of_ne h, beq_false_of_ne h']
        have h2 : newState.E.comp n = none := by
          simp [newState, twoState, twoMini, Mini.E, List.lookup, beq_false_of_ne h, beq_false_of_ne h']
        rw [h1, h2]
        exact .none

theorem demo_limited : Limited demoMath oldState := by
  intro v hv n hn
  simp only [demoMath, List.mem_singleton] at hv
  subst hv
  simp [BoundNames] at hn

theorem demo_retold : Retold (places demoNames) oldState.W.coords demoMath oldPlan newPlan where
  x v hv ρ hρ := by
    simp only [demoMath, List.mem_singleton] at hv
    subst hv
    rcases techs_old (hρ "techs" (by simp)) with h | h <;> simp [oldPlan, newPlan, Renaming.move, places, demoNames, h]
  default := rfl
  enum := rfl

theorem demo_holds : holdsB oldState.W.coords (assemble oldPlan demoMath oldState) = true ∧
    objectiveB (assemble oldPlan demoMath oldState) 0 = some 3 := by decide +kernel

theorem demo_bounds : ∀ before v after s', demoMath.vars = before ++ v :: after →
    addAll (addVariable oldPlan) oldState before = .ok s' →
    ∀ b, buildVariable s'.W s'.E v = .ok b → ∀ c ∈ cells oldState.W.coords b.dims, ∀ l, b.val c = some l →
      Within (oldPlan.x v.name c) l ∧ (v.integer = true → ∃ z : Int, oldPlan.x v.name c = z) := by
  intro before v after s' hv hs b hb c hc l hl
  have : before = [] ∧ v = ⟨"out", ["techs"], .atom (.bool true), false, .num 0, .unbounded⟩ := by
    cases before with
    | nil =>
      simp only [demoMath, List.nil_append, List.cons.injEq] at hv
      exact ⟨rfl, hv.1.symm⟩
    | cons w before => simp [demoMath] at hv
  obtain ⟨rfl, rfl⟩ := this
  simp only [addAll, Except.ok.injEq] at hs
  subst hs
  refine ⟨?_, by simp⟩
  have hx : 0 ≤ oldPlan.x "out" c := by
    simp only [oldPlan]
    split <;> norm_num
  simp only [buildVariable] at hb
  split at hb
  · cases hb
  · split at hb
    · simp only [boundArr, Except.ok.injEq] at hb
      subst hb
      simp only [zip, scalar] at hl
      rename_i m _ _
      rcases Bool.eq_false_or_eq_true (m.val (pick (joinDims m.dims (joinDims [] [])) c m.dims)) with hm | hm
      · simp only [hm, if_true, Option.some.injEq] at hl
        subst hl
        refine ⟨fun a ha => ?_, fun a ha => by cases ha⟩
        cases ha
        exact hx
      · simp only [hm, Bool.false_eq_true, if_false] at hl
        cases hl
    · simp only [Except.ok.injEq] at hb
      subst hb
      cases hl

/-- Two units of `a` and one of `b` are a plan of cost 3: so are two of `wind` and one of `pv`. -/
example : ∃ P, Feasible newPlan demoMath newState P ∧ IsObjective P 0 3 := by
  obtain ⟨h1, h2⟩ := demo_holds
  obtain ⟨P, e1, c1⟩ := holdsB_sound h1
  rw [e1] at h2
  exact ((C120_plans demo_nameless demo_renamed demo_limited demo_retold).2 0 3).1
    ⟨P, ⟨e1, c1, demo_bounds⟩, objectiveB_sound h2⟩

example : Cheapest oldPlan demoMath oldState 0 ↔ Cheapest newPlan demoMath newState 0 := by
  refine C120_best demo_nameless (by decide +kernel) demo_renamed (fun d => ?_) demo_limited demo_retold 0
  by_cases h : d = "techs"
  · subst h
    exact (by decide : ["pv", "wind"].Nodup)
  · show ((twoMini _ _).coords d).Nodup
    simp [Mini.coords, twoMini, List.lookup, beq_false_of_ne h]

/-- A limit only for the technology `a`. -/
def namingMath : Math Rat where
  vars := demoMath.vars
  globals := []
  constraints := [single "max" ["techs"] (.atom (.isIn [.str "a"] "techs")) (.cmp (.comp "out") "<=" (.num 1))]
  objectives := []

/-- C120: math that names a technology depends on the name: `a` may not do 2 units, under another name it may. -/
theorem C120_named : holdsB oldState.W.coords (assemble oldPlan namingMath oldState) = false ∧
    holdsB newState.W.coords (assemble newPlan namingMath newState) = true := by decide +kernel

/-- Math that names it is not counted as math without names. -/
example : ¬ Nameless (places demoNames) namingMath := fun h => by
  have := h.constraints _ List.mem_cons_self
  revert this
  decide

end Demo

end Rename
end Calliope
