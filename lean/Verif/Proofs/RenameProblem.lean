import Verif.Proofs.RenameBuild

/-!
# Problems under new names
-/

namespace Calliope
namespace Rename

open Grid Expr Build BaseMath Assemble Expand Infix
open Units (Both Among among)

variable {V : Type} {R : Renaming} {W W' : Where.Env}

/-! ### Components -/

theorem slices_among {c : Component V} {enum : List String → List String} {es : List (Equation V Cond)}
    (hp : parseEquations enum c.defn = .ok es) {e : Equation V Cond} (he : e ∈ es) {n : String} {d : SliceDef}
    (h : e.slices.lookup n = some d) : ∃ l w, (n, l) ∈ c.defn.slices ∧ (w, d) ∈ l := by
  obtain ⟨i, w, body, hi, cs, hcs, ss, hss, hb, _, hw, hs, hl⟩ := (C44_product hp e).1 he
  rw [hl] at h
  obtain ⟨a, ha, hf⟩ := lookup_map_mem h
  obtain ⟨l, v, hl, hx, hu⟩ := hss.2 a ha
  obtain ⟨rfl, rfl⟩ := Prod.mk.inj hf
  exact ⟨l, v, lookup_mem hl, List.mem_of_getElem? hx⟩

theorem joinDims_sub {a b : List String} (h : ∀ d ∈ b, d ∈ a) : joinDims a b = a := by
  unfold joinDims
  rw [List.filter_eq_nil_iff.2 fun d hd => by simpa using h d hd, List.append_nil]

/-- Arrays over dimensions of a component. -/
def Part {α : Type} (R : Renaming) (coords : String → List Label) (sets : List String) (a a' : Arr α) : Prop :=
  Same R coords a a' ∧ ∀ d ∈ a.dims, d ∈ sets

/-- Arrays over the dimensions of a component, or of nothing. -/
def Whole {α : Type} (R : Renaming) (coords : String → List Label) (sets : List String) (a a' : Arr α) : Prop :=
  Same R coords a a' ∧ (a.dims = sets ∨ a.dims = [])

/-- The parts of an equation do not depend on names. -/
structure Fine (R : Renaming) (c : Component V) (e : Equation V Cond) : Prop where
  body : bodyOk (R.within c) e.body = true
  subs : ∀ n t, e.subs.lookup n = some t → exOk (R.within c) t = true
  slices : ∀ n d, e.slices.lookup n = some d → sliceFits (R.within c) n d = true
  wheres : ∀ t ∈ e.wheres, condOk R t = true

theorem fine {c : Component V} (hc : componentOk R c = true) {enum : List String → List String}
    {es : List (Equation V Cond)} (hp : parseEquations enum c.defn = .ok es) {e : Equation V Cond} (he : e ∈ es) :
    Fine R c e := by
  simp only [componentOk, Bool.and_eq_true, List.all_eq_true, decide_eq_true_eq] at hc
  obtain ⟨⟨⟨⟨_, h1⟩, h2⟩, h3⟩, h4⟩ := hc
  have ha := among hp he
  refine ⟨?_, fun n t h => ?_, fun n d h => ?_, fun t h => h1 t (ha.wheres t h)⟩
  · obtain ⟨w, hw, _⟩ := ha.body
    exact h2 _ hw
  · obtain ⟨l, w, hl, hm, _⟩ := ha.subs n t h
    exact h3 _ hl _ hm
  · obtain ⟨l, w, hl, hm⟩ := slices_among hp he h
    exact h4 _ hl _ hm

section Setters

variable [Field V] {E E' : Expr.Env V}

theorem setExpression_same (h : Envs R E E') {c : Component V} {e : Equation V Cond} (he : Fine R c e) {m m' : Arr Bool}
    (hm : Same R E.coords m m') (hd : m.dims = c.foreach) :
    Both (Part R E.coords c.foreach) (setExpression E e m) (setExpression E' e m') := by
  have hb := he.body
  simp only [setExpression]
  cases hx : e.body with
  | cmp _ _ _ => exact rfl
  | arith t =>
    rw [hx] at hb
    simp only [bodyOk] at hb
    simp only
    rcases (evalExpression_same (h.within c) he.slices he.subs hm hb).cases with ⟨y, e1, e2⟩ | ⟨a, a', e1, e2, ha⟩
    · simp only [e1, e2]; exact rfl
    · simp only [e1, e2]
      refine ⟨same_mask hm ha, fun d hdd => ?_⟩
      rcases mem_joinDims.1 hdd with hdd | hdd
      · simp only [evalExpression] at e1
        split at e1
        · cases e1
        · split at e1
          · cases e1
          · rename_i hw
            cases e1
            simp only [checkWhere] at hw
            split at hw
            · rename_i hall
              simp only [List.all_eq_true, List.contains_eq_mem, decide_eq_true_eq] at hall
              rw [← hd]
              exact hall d hdd
            · cases hw
      · rwa [← hd]

theorem setConstraint_same (h : Envs R E E') {c : Component V} {e : Equation V Cond} (he : Fine R c e) {m m' : Arr Bool}
    (hm : Same R E.coords m m') (hd : m.dims = c.foreach) :
    Both (Part R E.coords c.foreach) (setConstraint E e m) (setConstraint E' e m') := by
  have hb := he.body
  simp only [setConstraint]
  cases hx : e.body with
  | arith _ => exact rfl
  | cmp l o r =>
    rw [hx] at hb
    simp only [bodyOk, Bool.and_eq_true] at hb
    simp only
    rcases (evalComparison_same (h.within c) he.slices he.subs hm hb.1 hb.2).cases with ⟨y, e1, e2⟩ | ⟨a, a', e1, e2, ha⟩
    · simp only [e1, e2]; exact rfl
    · simp only [e1, e2]
      refine ⟨ha.map _, fun d hdd => ?_⟩
      have : a.dims = m.dims := by
        simp only [evalComparison] at e1
        split at e1
        · cases e1
        · split at e1
          · cases e1
          · split at e1
            · split at e1
              · cases e1
                rfl
              · cases e1
            · cases e1
      rw [← hd, ← this]
      exact hdd

end Setters

theorem buildLoop_same {S : Type} (hW : Masks R W W') {c : Component V} (ht : condOk R c.top = true)
    {f f' : Equation V Cond → Arr Bool → Except Err (Arr (Option S))} : ∀ (es : List (Equation V Cond))
    {a a' : Arr (Option S)}, (∀ e ∈ es, ∀ t ∈ e.wheres, condOk R t = true) →
    (∀ e ∈ es, ∀ m m', Same R W.coords m m' → m.dims = c.foreach → Both (Part R W.coords c.foreach) (f e m) (f' e m')) →
    Same R W.coords a a' → a.dims = c.foreach →
    Both (Whole R W.coords c.foreach) (buildLoop W c f a es) (buildLoop W' c f' a' es)
  | [], _, _, _, _, ha, hd => ⟨ha, .inl hd⟩
  | e :: es, a, a', hw, hf, ha, hd => by
    have ih := fun {a a' : Arr (Option S)} => buildLoop_same hW ht es (a := a) (a' := a')
      (fun x hx => hw x (List.mem_cons_of_mem _ hx)) (fun x hx => hf x (List.mem_cons_of_mem _ hx))
    simp only [buildLoop]
    rcases (equationMask_same hW c.foreach ht (hw e List.mem_cons_self)).cases with ⟨y, e1, e2⟩ | ⟨o, o', e1, e2, ho⟩
    · simp only [e1, e2]; exact rfl
    · simp only [e1, e2]
      cases ho with
      | none => exact ih ha hd
      | @some m m' hm =>
        have ho : overlaps W'.coords a' m' = overlaps W.coords a m :=
          (ha.zip hm.1 (fun v b => v.isSome && b)).anyCell hW.labels
        simp only [ho]
        by_cases hq : overlaps W.coords a m = true
        · rw [if_pos hq, if_pos hq]
          exact rfl
        · rw [if_neg hq, if_neg hq]
          rcases (hf e List.mem_cons_self _ _ hm.1 hm.2).cases with ⟨y, e1, e2⟩ | ⟨b, b', e1, e2, hb⟩
          · simp only [e1, e2]; exact rfl
          · simp only [e1, e2]
            refine ih (ha.zip hb.1 _) ?_
            show joinDims a.dims b.dims = c.foreach
            rw [joinDims_sub fun d hdd => hd ▸ hb.2 d hdd, hd]

theorem build_same {S : Type} (hW : Masks R W W') {c : Component V} (hc : componentOk R c = true)
    (enum : List String → List String) {f f' : Equation V Cond → Arr Bool → Except Err (Arr (Option S))}
    (hf : ∀ e, Fine R c e → ∀ m m', Same R W.coords m m' → m.dims = c.foreach →
      Both (Part R W.coords c.foreach) (f e m) (f' e m')) :
    Both (Whole R W.coords c.foreach) (build W enum c f) (build W' enum c f') := by
  have ht : condOk R c.top = true := by
    simp only [componentOk, Bool.and_eq_true, List.all_eq_true] at hc
    exact hc.1.1.1.2 c.top (by simp [Units.conditions])
  simp only [build]
  rcases (topLevel_same hW c.foreach ht).cases with ⟨y, e1, e2⟩ | ⟨m, m', e1, e2, hm⟩
  · simp only [e1, e2]; exact rfl
  simp only [e1, e2, hm.1.anyCell hW.labels]
  split
  · cases he : parseEquations enum c.defn with
    | error x => exact rfl
    | ok es =>
      refine buildLoop_same hW ht es (fun e he' => (fine hc he he').wheres) (fun e he' => hf e (fine hc he he')) ?_ rfl
      exact ⟨rfl, fun _ _ => rfl⟩
  · exact ⟨same_scalar _, .inr rfl⟩

/-! ### Problems -/

section Problems

variable [Field V] {s s' : State V} {g g' : Given V} {M : Math V}

/-- States under different names. -/
structure States (R : Renaming) (coords : String → List Label) (s s' : State V) : Prop where
  W : Masks R s.W s'.W
  E : Envs R s.E s'.E
  wcoords : s.W.coords = coords
  ecoords : s.E.coords = coords

variable {coords : String → List Label}

theorem states_put (h : States R coords s s') (n : String) {a a' : Arr (Option V)} (ha : Same R coords a a') (d : Option V) :
    States R coords (s.put n a d) (s'.put n a' d) := by
  refine ⟨⟨h.W.labels, h.W.dims, h.W.config, h.W.arith, h.W.matrix, h.W.kind, h.W.default, h.W.input, h.W.held, ?_,
    h.W.number, h.W.sums⟩, ⟨h.E.labels, h.E.isDim, h.E.period, h.E.op, h.E.neg, h.E.truthy, h.E.lookup, h.E.dates, h.E.carrier, ?_⟩,
    h.wcoords, h.ecoords⟩
  · intro m
    simp only [State.put]
    split
    · refine .some ?_
      rw [h.wcoords]
      exact ha.map _
    · exact h.W.result m
  · intro m
    simp only [State.put]
    split
    · refine .some ⟨rfl, ?_⟩
      rw [h.ecoords]
      exact ha
    · exact h.E.comp m

theorem boundArr_same (h : States R coords s s') (b : Bound V) :
    Both (Same R coords) (boundArr s.E b) (boundArr s'.E b) := by
  cases b with
  | num v => exact same_scalar _
  | unbounded => exact same_scalar _
  | input n =>
    have hc := h.E.comp n
    rw [h.ecoords] at hc
    simp only [boundArr]
    generalize s.E.comp n = x at hc ⊢
    generalize s'.E.comp n = y at hc ⊢
    cases hc with
    | none => exact rfl
    | some hr =>
      simp only [hr.1]
      exact hr.2.map _

/-- Limits are given for dimensions of the variable. -/
def Bounded (M : Math V) (s : State V) : Prop :=
  ∀ v ∈ M.vars, ∀ n ∈ BoundNames v.lower ++ BoundNames v.upper, ∀ c, s.E.comp n = some c → ∀ d ∈ c.arr.dims, d ∈ v.foreach

theorem boundArr_dims {sets : List String} {b : Bound V}
    (h : ∀ n ∈ BoundNames b, ∀ c, s.E.comp n = some c → ∀ d ∈ c.arr.dims, d ∈ sets) {a : Arr (Option V)}
    (ha : boundArr s.E b = .ok a) : ∀ d ∈ a.dims, d ∈ sets := by
  cases b with
  | num v =>
    cases ha
    simp [scalar]
  | unbounded =>
    cases ha
    simp [scalar]
  | input n =>
    simp only [boundArr] at ha
    split at ha
    · rename_i c hc
      cases ha
      exact h n (by simp [BoundNames]) c hc
    · cases ha

theorem buildVariable_same (h : States R coords s s') (hb : Bounded M s) {v : Variable V} (hv : v ∈ M.vars)
    (hn : variableOk R v = true) :
    Both (fun b b' => Same R coords b b' ∧ (b.dims = v.foreach ∨ b = scalar none)) (buildVariable s.W s.E v)
      (buildVariable s'.W s'.E v) := by
  simp only [variableOk, Bool.and_eq_true] at hn
  simp only [buildVariable, variableMask]
  rcases (topLevel_same h.W v.foreach hn.2).cases with ⟨y, e1, e2⟩ | ⟨m, m', e1, e2, hm⟩
  · simp only [e1, e2]; exact rfl
  simp only [e1, e2, hm.1.anyCell h.W.labels]
  cases hc : anyCell s.W.coords m with
  | false => exact ⟨same_scalar _, .inr rfl⟩
  | true =>
    simp only [if_true]
    rcases (boundArr_same h v.lower).cases with ⟨y, e1, e2⟩ | ⟨l, l', l1, l2, hl⟩
    · simp only [e1, e2]; exact rfl
    simp only [l1, l2]
    rcases (boundArr_same h v.upper).cases with ⟨y, e1, e2⟩ | ⟨u, u', u1, u2, hu⟩
    · simp only [e1, e2]; exact rfl
    simp only [u1, u2]
    have hm' := hm.1
    rw [h.wcoords] at hm'
    refine ⟨hm'.zip (hl.zip hu _) _, .inl ?_⟩
    show joinDims m.dims (joinDims l.dims u.dims) = v.foreach
    rw [hm.2 hc]
    refine joinDims_sub fun d hd => ?_
    rcases mem_joinDims.1 hd with hd | hd
    · exact boundArr_dims (fun n hn => hb v hv n (List.mem_append_left _ hn)) l1 d hd
    · exact boundArr_dims (fun n hn => hb v hv n (List.mem_append_right _ hn)) u1 d hd

theorem addVariable_same (h : States R coords s s') (hg : Retold R coords M g g') (hl : Limited M s) {v : Variable V}
    (hv : v ∈ M.vars) (hn : variableOk R v = true) :
    Both (fun x x' => States R coords x x' ∧ Limited M x) (addVariable g s v) (addVariable g' s' v) := by
  simp only [addVariable]
  rcases (buildVariable_same h (fun v hv n hn => (hl v hv n hn).2) hv hn).cases with ⟨y, e1, e2⟩ | ⟨b, b', e1, e2, hb⟩
  · simp only [e1, e2]; exact rfl
  simp only [e1, e2, hg.default]
  refine ⟨states_put h v.name ?_ _, ?_⟩
  · refine ⟨hb.1.1, fun ρ hρ => ?_⟩
    have hr := hb.1.2 ρ hρ
    simp only [Arr.at, hb.1.1] at hr
    simp only [Arr.at, valued, hb.1.1, hr]
    rcases hb.2 with hd | hd
    · rw [hd, hg.x v hv ρ (hd ▸ hρ)]
    · rw [hd]
      rfl
  · intro u hu n hnn
    obtain ⟨h1, h2⟩ := hl u hu n hnn
    refine ⟨h1, fun c hc => h2 c ?_⟩
    simp only [State.put] at hc
    rwa [if_neg (Ne.symm (h1 v hv))] at hc

theorem envs_coords (h : States R coords s s') : s.E.coords = s.W.coords := h.ecoords.trans h.wcoords.symm

theorem buildExpression_same (h : States R coords s s') (enum : List String → List String) {c : Component V}
    (hc : componentOk R c = true) :
    Both (Whole R coords c.foreach) (buildExpression s.W s.E enum c) (buildExpression s'.W s'.E enum c) := by
  have := build_same h.W hc enum (f := setExpression s.E) (f' := setExpression s'.E) fun e he m m' hm hd => by
    have := setExpression_same h.E he (m := m) (m' := m') (by rwa [envs_coords h]) hd
    rwa [envs_coords h] at this
  rwa [h.wcoords] at this

theorem buildConstraint_same (h : States R coords s s') (enum : List String → List String) {c : Component V}
    (hc : componentOk R c = true) :
    Both (Whole R coords c.foreach) (buildConstraint s.W s.E enum c) (buildConstraint s'.W s'.E enum c) := by
  have := build_same h.W hc enum (f := setConstraint s.E) (f' := setConstraint s'.E) fun e he m m' hm hd => by
    have := setConstraint_same h.E he (m := m) (m' := m') (by rwa [envs_coords h]) hd
    rwa [envs_coords h] at this
  rwa [h.wcoords] at this

theorem addGlobal_same (h : States R coords s s') (hg : Retold R coords M g g') {c : Component V}
    (hc : componentOk R c = true) : Both (States R coords) (addGlobal g s c) (addGlobal g' s' c) := by
  simp only [addGlobal, hg.enum, hg.default]
  rcases (buildExpression_same h g.enum hc).cases with ⟨y, e1, e2⟩ | ⟨a, a', e1, e2, ha⟩
  · simp only [e1, e2]; exact rfl
  · simp only [e1, e2]
    exact states_put h _ ha.1 _

theorem addAll_same {α : Type} {T : State V → State V → Prop} {add add' : State V → α → Except Err (State V)} :
    ∀ (l : List α) {s s' : State V}, T s s' → (∀ a ∈ l, ∀ x x' : State V, T x x' → Both T (add x a) (add' x' a)) →
    Both T (addAll add s l) (addAll add' s' l)
  | [], _, _, h, _ => h
  | a :: l, s, s', h, hf => by
    simp only [addAll]
    rcases (hf a List.mem_cons_self _ _ h).cases with ⟨y, e1, e2⟩ | ⟨x, x', e1, e2, hr⟩
    · simp only [e1, e2]; exact rfl
    · simp only [e1, e2]
      exact addAll_same l hr fun b hb => hf b (List.mem_cons_of_mem _ hb)

theorem keepAll_same {α β : Type} {T : β → β → Prop} {make make' : α → Except Err β} : ∀ (l : List α),
    (∀ a ∈ l, Both T (make a) (make' a)) → Both (List.Forall₂ T) (keepAll make l) (keepAll make' l)
  | [], _ => List.Forall₂.nil
  | a :: l, hf => by
    simp only [keepAll]
    rcases (hf a List.mem_cons_self).cases with ⟨y, e1, e2⟩ | ⟨x, x', e1, e2, hr⟩
    · simp only [e1, e2]; exact rfl
    · simp only [e1, e2]
      rcases (keepAll_same l fun b hb => hf b (List.mem_cons_of_mem _ hb)).cases with ⟨y, e1, e2⟩ | ⟨z, z', e1, e2, hz⟩
      · simp only [e1, e2]; exact rfl
      · simp only [e1, e2]
        exact .cons hr hz

theorem states_start (hs : Renamed R s s') : States R s.W.coords s s' := by
  refine ⟨⟨covers hs.labels, hs.dims, hs.config, hs.arith, hs.matrix, hs.kind, hs.default, hs.input, hs.held, hs.result,
    hs.number, hs.sums⟩, ⟨?_, hs.isDim, hs.period, hs.op, hs.neg, hs.truthy, ?_, ?_, ?_, ?_⟩, rfl, hs.ecoords.1⟩
  · rw [hs.ecoords.1, hs.ecoords.2]
    exact hs.labels
  · rw [hs.ecoords.1]
    exact hs.lookup
  · rw [hs.ecoords.1]
    exact hs.dates
  · rw [hs.ecoords.1]
    exact hs.carrier
  · rw [hs.ecoords.1]
    exact hs.comp

/-- Problems under different names. -/
structure Problems (R : Renaming) (coords : String → List Label) (P P' : Problem V) : Prop where
  constraints : List.Forall₂ (fun a a' => Same R coords a a' ∧ a.dims.Nodup) P.constraints P'.constraints
  objectives : List.Forall₂ (fun a a' => Same R coords a a' ∧ a.dims = []) P.objectives P'.objectives

theorem assemble_same (hM : Nameless R M) (hs : Renamed R s s') (hl : Limited M s) (hg : Retold R s.W.coords M g g') :
    Both (Problems R s.W.coords) (assemble g M s) (assemble g' M s') := by
  simp only [assemble]
  rcases (addAll_same (T := fun x x' => States R s.W.coords x x' ∧ Limited M x) (add := addVariable g) (add' := addVariable g')
    M.vars ⟨states_start hs, hl⟩ fun v hv x x' h => addVariable_same h.1 hg h.2 hv (hM.vars v hv)).cases
    with ⟨y, e1, e2⟩ | ⟨s1, s1', e1, e2, h1⟩
  · simp only [e1, e2]; exact rfl
  simp only [e1, e2]
  rcases (addAll_same (T := States R s.W.coords) (add := addGlobal g) (add' := addGlobal g') M.globals h1.1
    fun c hc x x' h => addGlobal_same h hg (hM.globals c hc)).cases with ⟨y, e1, e2⟩ | ⟨s2, s2', e1, e2, h2⟩
  · simp only [e1, e2]; exact rfl
  simp only [e1, e2, hg.enum]
  have hcons : ∀ c ∈ M.constraints, Both (fun a a' => Same R s.W.coords a a' ∧ a.dims.Nodup)
      (buildConstraint s2.W s2.E g.enum c) (buildConstraint s2'.W s2'.E g.enum c) := by
    intro c hc
    have hn := hM.constraints c hc
    refine (buildConstraint_same h2 g.enum hn).mono fun a b h => ⟨h.1, ?_⟩
    simp only [componentOk, Bool.and_eq_true, decide_eq_true_eq] at hn
    rcases h.2 with h | h
    · rw [h]
      exact hn.1.1.1.1
    · rw [h]
      exact List.nodup_nil
  have hobj : ∀ c ∈ M.objectives, Both (fun a a' => Same R s.W.coords a a' ∧ a.dims = [])
      (buildExpression s2.W s2.E g.enum c) (buildExpression s2'.W s2'.E g.enum c) := by
    intro c hc
    refine (buildExpression_same h2 g.enum (hM.objectives c hc).1).mono fun a b h => ⟨h.1, ?_⟩
    rcases h.2 with h | h
    · rw [h, (hM.objectives c hc).2]
    · exact h
  rcases (keepAll_same M.constraints hcons).cases with ⟨y, e1, e2⟩ | ⟨cs, cs', e1, e2, h3⟩
  · simp only [e1, e2]; exact rfl
  simp only [e1, e2]
  rcases (keepAll_same M.objectives hobj).cases with ⟨y, e1, e2⟩ | ⟨os, os', e1, e2, h4⟩
  · simp only [e1, e2]; exact rfl
  simp only [e1, e2]
  exact ⟨h3, h4⟩

/-! ### Cells -/

/-- The items of an array, renamed. -/
theorem cell_same {α : Type} {coords' : String → List Label} (hc : Covers R coords coords') {a a' : Arr α}
    (h : Same R coords a a') (hn : a.dims.Nodup) :
    (∀ c ∈ cells coords a.dims, a.dims.map (R.move (override (fun _ => "") a.dims c)) ∈ cells coords' a'.dims ∧
      a'.val (a.dims.map (R.move (override (fun _ => "") a.dims c))) = a.val c ∧
      a.dims.map (override (fun _ => "") a.dims c) = c) ∧
    (∀ c' ∈ cells coords' a'.dims, ∃ c ∈ cells coords a.dims,
      c' = a.dims.map (R.move (override (fun _ => "") a.dims c))) := by
  have key : ∀ c ∈ cells coords a.dims,
      a.dims.map (R.move (override (fun _ => "") a.dims c)) = List.zipWith R.of a.dims c := by
    intro c hm
    have hl := length_of_mem_cells hm
    rw [← move_override, map_override _ _ _ hn (by simp [hl])]
  constructor
  · intro c hm
    have hl := length_of_mem_cells hm
    have e0 := map_override (fun _ => "") a.dims c hn hl
    refine ⟨?_, ?_, e0⟩
    · rw [key c hm, h.1, cells_mem hc.mem a.dims]
      exact ⟨c, hm, rfl⟩
    · have := h.2 (override (fun _ => "") a.dims c) fun d hd => mem_of_cells hm d hd
      simp only [Arr.at, h.1] at this
      rw [this, e0]
  · intro c' hm
    rw [h.1, cells_mem hc.mem a.dims] at hm
    obtain ⟨c, hc, rfl⟩ := hm
    exact ⟨c, hc, (key c hc).symm⟩

end Problems

end Rename
end Calliope
