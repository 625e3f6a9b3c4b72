import Verif.Spec.Restrict
import Verif.Props.Order
import Verif.Props.MathFiles
import Verif.Props.Linear

/-!
# C125: more components only cut plans
-/

namespace Calliope
namespace Restrict

open Grid Expr Build BaseMath Assemble
open Linear (Feasible IsObjective SamePlace)
open Average (Attained)

section General

variable {V : Type} {new : String → Prop} {α : Type}

theorem Among.append_cons {extra : α → Prop} {l l' : List α} (h : Among extra l l') : ∀ {before : List α} {v : α}
    {after : List α}, l = before ++ v :: after →
    ∃ before' after', l' = before' ++ v :: after' ∧ Among extra before before' := by
  induction h with
  | nil =>
    intro before v after hl
    simp at hl
  | kept a h ih =>
    intro before v after hl
    cases before with
    | nil =>
      simp only [List.nil_append, List.cons.injEq] at hl
      obtain ⟨rfl, rfl⟩ := hl
      exact ⟨[], _, rfl, .nil⟩
    | cons b before =>
      simp only [List.cons_append, List.cons.injEq] at hl
      obtain ⟨rfl, rfl⟩ := hl
      obtain ⟨x, y, rfl, h1⟩ := ih rfl
      exact ⟨a :: x, y, rfl, .kept a h1⟩
  | added a ha h ih =>
    intro before v after hl
    obtain ⟨x, y, rfl, h1⟩ := ih hl
    exact ⟨a :: x, y, rfl, .added a ha h1⟩

theorem Among.split {extra : α → Prop} {l l' : List α} (h : Among extra l l') : ∀ {before' : List α} {v : α}
    {after' : List α}, l' = before' ++ v :: after' →
    extra v ∨ ∃ before after, l = before ++ v :: after ∧ Among extra before before' := by
  induction h with
  | nil =>
    intro before v after hl
    simp at hl
  | kept a h ih =>
    intro before v after hl
    cases before with
    | nil =>
      simp only [List.nil_append, List.cons.injEq] at hl
      obtain ⟨rfl, rfl⟩ := hl
      exact .inr ⟨[], _, rfl, .nil⟩
    | cons b before =>
      simp only [List.cons_append, List.cons.injEq] at hl
      obtain ⟨rfl, rfl⟩ := hl
      rcases ih rfl with hx | ⟨x, y, rfl, h1⟩
      · exact .inl hx
      · exact .inr ⟨a :: x, y, rfl, .kept a h1⟩
  | added a ha h ih =>
    intro before v after hl
    cases before with
    | nil =>
      simp only [List.nil_append, List.cons.injEq] at hl
      exact .inl (hl.1 ▸ ha)
    | cons b before =>
      simp only [List.cons_append, List.cons.injEq] at hl
      obtain ⟨rfl, rfl⟩ := hl
      rcases ih rfl with hx | ⟨x, y, rfl, h1⟩
      · exact .inl hx
      · exact .inr ⟨x, y, rfl, .added a ha h1⟩

theorem Among.refl {extra : α → Prop} : ∀ (l : List α), Among extra l l
  | [] => .nil
  | a :: l => .kept a (Among.refl l)

theorem addAll_append {add : State V → α → Except Err (State V)} : ∀ {l r : List α} {s t : State V},
    addAll add s (l ++ r) = .ok t → ∃ u, addAll add s l = .ok u ∧ addAll add u r = .ok t
  | [], _, s, _, h => ⟨s, rfl, h⟩
  | a :: l, r, s, t, h => by
    simp only [List.cons_append, addAll] at h ⊢
    cases ha : add s a with
    | error e => simp [ha] at h
    | ok s' =>
      simp only [ha] at h ⊢
      exact addAll_append h

/-- What is added with new names does not change what the others become. -/
theorem addAll_among {name : α → String} {uses : α → List String} {default : α → Option V}
    {make : State V → α → Except Err (Arr (Option V))}
    (hf : ∀ {s s' : State V}, SameBut new s s' → ∀ a, Clear new (uses a) → make s a = make s' a) :
    ∀ {l l' : List α}, Among (fun a => new (name a)) l l' → (∀ a ∈ l, Clear new (uses a)) → ∀ {s s' t' : State V},
    SameBut new s s' → addAll (step name default make) s' l' = .ok t' →
      ∃ t, addAll (step name default make) s l = .ok t ∧ SameBut new t t' := by
  intro l l' h
  induction h with
  | nil =>
    intro _ s s' t' hs ht
    simp only [addAll, Except.ok.injEq] at ht
    exact ⟨s, rfl, ht ▸ hs⟩
  | kept a h ih =>
    intro hu s s' t' hs ht
    have he := hf hs a (hu a List.mem_cons_self)
    simp only [addAll, step] at ht ⊢
    rw [he]
    cases hm : make s' a with
    | error e => simp [hm] at ht
    | ok b =>
      simp only [hm] at ht ⊢
      exact ih (fun x hx => hu x (List.mem_cons_of_mem _ hx)) (hs.put_same _ _ _) ht
  | added a ha h ih =>
    intro hu s s' t' hs ht
    simp only [addAll, step] at ht
    cases hm : make s' a with
    | error e => simp [hm] at ht
    | ok b =>
      simp only [hm] at ht
      refine ih hu (hs.trans ((sameBut_put s' (name a) b (default a)).mono ?_)) ht
      rintro n rfl
      exact ha

theorem keepAll_sublist {α β : Type} {make make' : α → Except Err β} {l l' : List α} (h : l.Sublist l') :
    ∀ {bs' : List β}, (∀ a ∈ l, make a = make' a) → keepAll make' l' = .ok bs' →
      ∃ bs, keepAll make l = .ok bs ∧ (l.zip bs).Sublist (l'.zip bs') ∧ bs.Sublist bs' := by
  induction h with
  | slnil =>
    intro bs' _ hb
    simp only [keepAll, Except.ok.injEq] at hb
    subst hb
    exact ⟨[], rfl, by simp, by simp⟩
  | cons a h ih =>
    intro bs' he hb
    simp only [keepAll] at hb
    split at hb
    · cases hb
    · split at hb
      · cases hb
      · rename_i b _ bs hbs
        simp only [Except.ok.injEq] at hb
        subst hb
        obtain ⟨cs, h1, h2, h3⟩ := ih he hbs
        exact ⟨cs, h1, h2.cons _, h3.cons _⟩
  | cons_cons a h ih =>
    intro bs' he hb
    simp only [keepAll] at hb
    split at hb
    · cases hb
    · split at hb
      · cases hb
      · rename_i _ b hab _ bs hbs
        simp only [Except.ok.injEq] at hb
        subst hb
        obtain ⟨cs, h1, h2, h3⟩ := ih (fun x hx => he x (List.mem_cons_of_mem _ hx)) hbs
        refine ⟨b :: cs, ?_, h2.cons_cons _, h3.cons_cons _⟩
        simp only [keepAll, he a List.mem_cons_self, hab, h1]

theorem keepAll_length {α β : Type} {make : α → Except Err β} : ∀ {l : List α} {bs : List β}, keepAll make l = .ok bs →
    bs.length = l.length
  | [], bs, h => by
    simp only [keepAll, Except.ok.injEq] at h
    simp [← h]
  | a :: l, bs, h => by
    simp only [keepAll] at h
    split at h
    · cases h
    · split at h
      · cases h
      · rename_i hbs
        simp only [Except.ok.injEq] at h
        subst h
        simp [keepAll_length hbs]

/-- Items that are in a longer list only have names that are in the longer list only, if all names are distinct. -/
theorem among_of_sublist {name : α → String} {extra : α → Prop} {l l' : List α} (h : l.Sublist l')
    (hd : (l'.map name).Nodup) (hx : ∀ a ∈ l', name a ∉ l.map name → extra a) : Among extra l l' := by
  induction h with
  | slnil => exact .nil
  | cons a h ih =>
    simp only [List.map_cons, List.nodup_cons] at hd
    refine .added a (hx a List.mem_cons_self fun hm => hd.1 ?_) (ih hd.2 fun b hb => hx b (List.mem_cons_of_mem _ hb))
    obtain ⟨b, hb, he⟩ := List.mem_map.1 hm
    exact List.mem_map.2 ⟨b, h.subset hb, he⟩
  | cons_cons a h ih =>
    simp only [List.map_cons, List.nodup_cons] at hd
    refine .kept a (ih hd.2 fun b hb hn => hx b (List.mem_cons_of_mem _ hb) ?_)
    simp only [List.map_cons, List.mem_cons, not_or]
    exact ⟨fun he => hd.1 (List.mem_map.2 ⟨b, hb, he⟩), hn⟩

end General

section Main

variable {V : Type} [Field V] {new : String → Prop} {M M' : Math V} {g : Given V} {s : State V} {P P' : Problem V}

theorem vars_among {l l' : List (Variable V)} (h : Among (fun v : Variable V => new v.name) l l')
    (hu : ∀ v ∈ l, ∀ n ∈ VariableNames v, ¬new n) {t' : State V} (ht : addAll (addVariable g) s l' = .ok t') :
    ∃ t, addAll (addVariable g) s l = .ok t ∧ SameBut new t t' := by
  rw [addVariable_step] at ht ⊢
  exact addAll_among (uses := VariableNames) (fun hs v hv => by simp only [buildVariable_frame hs v hv]) h hu
    (sameBut_refl _ _) ht

/-- C125: math with more components can only be built if the math without them can be; arrays with other names, constraints
and objectives are the same in both. -/
theorem C125_builds (he : Extended new M M') (h : assemble g M' s = .ok P') :
    ∃ P, assemble g M s = .ok P ∧ SameBut new P.state P'.state ∧
      (M.constraints.zip P.constraints).Sublist (M'.constraints.zip P'.constraints) ∧
      P.constraints.Sublist P'.constraints ∧
      (M.objectives.zip P.objectives).Sublist (M'.objectives.zip P'.objectives) := by
  simp only [assemble] at h
  split at h
  · cases h
  rename_i t1 h1
  split at h
  · cases h
  rename_i t2 h2
  split at h
  · cases h
  rename_i cs hcs
  split at h
  · cases h
  rename_i os hos
  simp only [Except.ok.injEq] at h
  subst h
  obtain ⟨u1, e1, b1⟩ := vars_among he.vars he.unused.vars h1
  rw [addGlobal_step] at h2
  obtain ⟨u2, e2, b2⟩ := addAll_among (uses := ComponentNames) (fun hs c hc => buildExpression_frame hs g.enum c hc)
    he.globals (fun c hc => he.unused.components c (by simp [hc])) b1 h2
  obtain ⟨ds, d1, d2, d3⟩ := keepAll_sublist he.constraints (make := buildConstraint u2.W u2.E g.enum)
    (fun c hc => buildConstraint_frame b2 g.enum c (he.unused.components c (by simp [hc]))) hcs
  obtain ⟨ps, p1, p2, _⟩ := keepAll_sublist he.objectives (make := buildExpression u2.W u2.E g.enum)
    (fun c hc => buildExpression_frame b2 g.enum c (he.unused.components c (by simp [hc]))) hos
  refine ⟨⟨u2, ds, ps⟩, ?_, b2, d2, d3, p2⟩
  simp only [assemble]
  rw [addGlobal_step, e1]
  simp only [e2, d1, p1]

theorem assemble_vars (h : assemble g M s = .ok P) : ∃ t, addAll (addVariable g) s M.vars = .ok t := by
  simp only [assemble] at h
  split at h
  · cases h
  exact ⟨_, ‹_›⟩

variable [LE V]

/-- C125: a plan for math with more components is a plan for the math without them.  Its objectives are the same. -/
theorem C125_plan (he : Extended new M M') (h : Feasible g M' s P') :
    ∃ P, Feasible g M s P ∧ (M.objectives.zip P.objectives).Sublist (M'.objectives.zip P'.objectives) := by
  obtain ⟨P, hP, _, _, hc, ho⟩ := C125_builds he h.builds
  refine ⟨P, ⟨hP, fun a ha => h.constraints a (hc.subset ha), ?_⟩, ho⟩
  intro before v after s1 hv hs b hb
  obtain ⟨before', after', hv', h1⟩ := he.vars.append_cons hv
  obtain ⟨t, ht⟩ := assemble_vars h.builds
  rw [hv'] at ht
  obtain ⟨u, hu, _⟩ := addAll_append ht
  have hmem : ∀ w ∈ before, w ∈ M.vars := fun w hw => by simp [hv, hw]
  obtain ⟨t1, e1, b1⟩ := vars_among h1 (fun w hw => he.unused.vars w (hmem w hw)) hu
  rw [hs] at e1
  cases e1
  rw [buildVariable_frame b1 v (he.unused.vars v (by simp [hv]))] at hb
  exact h.bounds before' v after' u hv' hu b hb

/-- C125: which values of decisions are plans for math with more components: those that are plans without them, for which
the constraints that were added hold, and the bounds of variables that were added. -/
theorem C125_iff (he : Extended new M M') (h : assemble g M' s = .ok P') : Feasible g M' s P' ↔
    (∃ P, Feasible g M s P) ∧
      (∀ (i : Nat) c a, M'.constraints[i]? = some c → P'.constraints[i]? = some a → c ∉ M.constraints → Holds s.W.coords a) ∧
      ∀ before v after s', M'.vars = before ++ v :: after → new v.name → addAll (addVariable g) s before = .ok s' →
        ∀ b, buildVariable s'.W s'.E v = .ok b → Bounded g s.W.coords v b := by
  constructor
  · intro hf
    obtain ⟨P, hP, _⟩ := C125_plan he hf
    exact ⟨⟨P, hP⟩, fun i c a _ ha _ => hf.constraints a (List.mem_of_getElem? ha),
      fun before v after s' hv _ hs b hb => hf.bounds before v after s' hv hs b hb⟩
  · rintro ⟨⟨Q, hQ⟩, hc, hb⟩
    obtain ⟨P, hP, hsb, hz, _, _⟩ := C125_builds he h
    cases hP.symm.trans hQ.builds
    refine ⟨h, ?_, ?_⟩
    · intro a ha
      obtain ⟨i, hi⟩ := List.mem_iff_getElem?.1 ha
      obtain ⟨c, hci⟩ : ∃ c, M'.constraints[i]? = some c := by
        cases hx : M'.constraints[i]? with
        | some c => exact ⟨c, rfl⟩
        | none =>
          have hlen : P'.constraints.length = M'.constraints.length := keepAll_length (assemble_parts h).1
          rw [List.getElem?_eq_none_iff] at hx
          rw [List.getElem?_eq_none (by omega)] at hi
          cases hi
      by_cases hcM : c ∈ M.constraints
      · obtain ⟨j, hj⟩ := List.mem_iff_getElem?.1 hcM
        obtain ⟨b, hbj, hmk⟩ := keepAll_get (assemble_parts hQ.builds).1 j c hj
        obtain ⟨b', hbi, hmk'⟩ := keepAll_get (assemble_parts h).1 i c hci
        rw [buildConstraint_frame hsb g.enum c (he.unused.components c (by simp [hcM])), hmk'] at hmk
        cases hmk
        rw [hi] at hbi
        cases hbi
        exact hQ.constraints a (List.mem_of_getElem? hbj)
      · exact hc i c a hci hi hcM
    · intro before v after s1 hv hs b hbv
      rcases he.vars.split hv with hn | ⟨before0, after0, hv0, h1⟩
      · exact hb before v after s1 hv hn hs b hbv
      · obtain ⟨t1, e1, b1⟩ := vars_among h1 (fun w hw => he.unused.vars w (by simp [hv0, hw])) hs
        rw [← buildVariable_frame b1 v (he.unused.vars v (by simp [hv0]))] at hbv
        exact hQ.bounds before0 v after0 t1 hv0 e1 b hbv

/-- C125: the best plan is not better with more components: any value that plans attain, plans attain without them. -/
theorem C125_best (he : Extended new M M') (ho : M'.objectives = M.objectives) (i : Nat) :
    Attained g M' s i ⊆ Attained g M s i := by
  rintro v ⟨h, P', hp, hf, a, ha, hv⟩
  obtain ⟨P, hP, hz⟩ := C125_plan he hf
  refine ⟨h, P, hp, hP, a, ?_, hv⟩
  have l1 := keepAll_length (assemble_parts hP.builds).2
  have l2 := keepAll_length (assemble_parts hf.builds).2
  rw [ho] at hz l2
  have hz' := hz.eq_of_length (by simp [l1, l2])
  have := congrArg (List.map Prod.snd) hz'
  rw [List.map_snd_zip (by omega), List.map_snd_zip (by omega)] at this
  rw [this]
  exact ha

/-- C125: definitions alone cut nothing: with more global expressions, the same values of decisions are plans, as far as the
expressions can be built. -/
theorem C125_definitions (he : Extended new M M') (hv : M'.vars = M.vars) (hc : M'.constraints = M.constraints)
    (hn : ∀ v ∈ M.vars, ¬new v.name) (h : assemble g M' s = .ok P') : Feasible g M' s P' ↔ ∃ P, Feasible g M s P := by
  rw [C125_iff he h]
  refine ⟨fun h => h.1, fun h => ⟨h, ?_, ?_⟩⟩
  · intro i c a hi _ hn
    exact absurd (hc ▸ List.mem_of_getElem? hi) hn
  · intro before v after s' hs hnv
    exact absurd hnv (hn v (by simp [← hv, hs]))

end Main

/-! ### Math files -/

section Files

open MathText

/-- The name of a variable or of a global expression that one math has and another has not. -/
def Fresh (M M' : Assemble.Math Rat) (n : String) : Prop :=
  n ∈ M'.vars.map Variable.name ++ M'.globals.map (fun c => c.defn.name) ∧
    n ∉ M.vars.map Variable.name ++ M.globals.map (fun c => c.defn.name)

theorem extended_of_sublists {M M' : Assemble.Math Rat} (hv : M.vars.Sublist M'.vars) (hg : M.globals.Sublist M'.globals)
    (hc : M.constraints.Sublist M'.constraints) (ho : M.objectives.Sublist M'.objectives)
    (hd : (M'.vars.map Variable.name ++ M'.globals.map (fun c => c.defn.name)).Nodup) (hu : Unused (Fresh M M') M) :
    Extended (Fresh M M') M M' := by
  obtain ⟨d1, d2, d3⟩ := List.nodup_append.1 hd
  refine ⟨among_of_sublist (name := Variable.name) hv d1 fun v hm hn => ?_,
    among_of_sublist (name := fun c : Component Rat => c.defn.name) hg d2 fun c hm hn => ?_, hc, ho, hu⟩
  · have h1 : v.name ∈ M'.vars.map Variable.name := List.mem_map.2 ⟨v, hm, rfl⟩
    refine ⟨List.mem_append_left _ h1, fun h => ?_⟩
    rcases List.mem_append.1 h with h | h
    · exact hn h
    · obtain ⟨c, hc, he⟩ := List.mem_map.1 h
      exact d3 _ h1 _ (List.mem_map.2 ⟨c, hg.subset hc, rfl⟩) he.symm
  · have h1 : c.defn.name ∈ M'.globals.map (fun c => c.defn.name) := List.mem_map.2 ⟨c, hm, rfl⟩
    refine ⟨List.mem_append_right _ h1, fun h => ?_⟩
    rcases List.mem_append.1 h with h | h
    · obtain ⟨v, hv', he⟩ := List.mem_map.1 h
      exact d3 _ (List.mem_map.2 ⟨v, hv.subset hv', rfl⟩) _ h1 he
    · exact hn h

/-- C125: an extra math file on top of the math of base mode, which leaves the components of base mode as they are: its plans
are plans of base mode, and they cost the same. -/
theorem C125_base (m : File) (M : MathText.Math) (hm : (baseFile.over m).read = some M) (hn : New baseFile m)
    (hd : (M.vars.map Variable.name ++ M.globals.map (fun c => c.defn.name)).Nodup)
    (hu : Unused (Fresh (ofRead baseMath) (ofRead M)) (ofRead baseMath)) {g : Given Rat} {s : State Rat} {P' : Problem Rat}
    (h : Feasible g (ofRead M) s P') : ∃ P, Feasible g (ofRead baseMath) s P ∧
      ((ofRead baseMath).objectives.zip P.objectives).Sublist ((ofRead M).objectives.zip P'.objectives) := by
  obtain ⟨h1, h2, h3, h4, _, _⟩ := C103_base_extra m M hm hn
  exact C125_plan (extended_of_sublists (M := ofRead baseMath) (M' := ofRead M) h1 h2 h3 h4 hd hu) h

/-- The math of base mode with an upper bound on what all technologies of a node put out. -/
def extraMath : MathText.Math := { baseMath with constraints := baseMath.constraints ++ [
    ⟨["nodes", "carriers", "timesteps"], .atom (.input "node_max"),
      ⟨"limit_node", [(BaseMath.always, .cmp (.sum (.comp "flow_out") ["techs"]) "<=" (.comp "node_max"))], [], []⟩⟩] }

theorem extra_read : (baseFile.over demoExtra).read = some extraMath := by kernel_rfl

/-- What `C125_base` asks for; so plans with that bound are plans without it. -/
example {g : Given Rat} {s : State Rat} {P' : Problem Rat} (h : Feasible g (ofRead extraMath) s P') :
    ∃ P, Feasible g (ofRead baseMath) s P ∧
      ((ofRead baseMath).objectives.zip P.objectives).Sublist ((ofRead extraMath).objectives.zip P'.objectives) :=
  C125_base demoExtra extraMath extra_read (isNew_sound (by decide +kernel)) (by decide +kernel)
    ⟨fun _ _ _ _ h => h.2 h.1, fun _ _ _ _ h => h.2 h.1⟩ h

end Files

/-! ### Demo -/

section Demo

open Linear (plan holdsB holdsB_sound plan_bounds)

/-- A variable, an expression and a constraint more: `thrice = 3 * out`, `thrice <= 4 + more`. -/
def moreMath : Assemble.Math Rat where
  vars := ⟨"more", [], .atom (.bool true), false, .num 0, .unbounded⟩ :: demoMath.vars
  globals := demoMath.globals ++
    [single "thrice" ["techs"] (.atom (.bool true)) (.arith (.chain (.num 3) (.one .times (.comp "out"))))]
  constraints := single "cut" ["techs"] (.atom (.bool true))
    (.cmp (.comp "thrice") "<=" (.chain (.num 4) (.one .plus (.comp "more")))) :: demoMath.constraints
  objectives := demoMath.objectives

theorem more_extended : Extended (fun n => n = "more" ∨ n = "thrice") demoMath moreMath where
  vars := .added _ (.inl rfl) (.kept _ .nil)
  globals := .kept _ (.kept _ (.added _ (.inr rfl) .nil))
  constraints := .cons _ (.refl _)
  objectives := .refl _
  unused := ⟨by decide +kernel, by decide +kernel⟩

/-- The plan with two units satisfies all constraints, that with three units only those of the math with less. -/
theorem more_cuts : holdsB (demoState 5).W.coords (assemble (plan 2) moreMath (demoState 5)) = true ∧
    holdsB (demoState 5).W.coords (assemble (plan 2) demoMath (demoState 5)) = true ∧
    holdsB (demoState 5).W.coords (assemble (plan 3) demoMath (demoState 5)) = true ∧
    (assemble (plan 3) moreMath (demoState 5)).isOk = true ∧
    holdsB (demoState 5).W.coords (assemble (plan 3) moreMath (demoState 5)) = false := by
  decide +kernel

/-- A plan of the math with more components, which C125 is about. -/
theorem more_plan : ∃ P, Feasible (plan 2) moreMath (demoState 5) P := by
  obtain ⟨h1, h2, _⟩ := more_cuts
  obtain ⟨P', e1, c1⟩ := holdsB_sound h1
  obtain ⟨P, e2, c2⟩ := holdsB_sound h2
  refine ⟨P', (C125_iff more_extended e1).2 ⟨⟨P, e2, c2, plan_bounds 2 (by norm_num)⟩,
    fun i c a _ ha _ => c1 a (List.mem_of_getElem? ha), ?_⟩⟩
  intro before v after s' hv hn hs b hb c hc l hl
  have : before = [] ∧ v = ⟨"more", [], .atom (.bool true), false, .num 0, .unbounded⟩ := by
    cases before with
    | nil =>
      simp only [moreMath, List.nil_append, List.cons.injEq] at hv
      exact ⟨rfl, hv.1.symm⟩
    | cons w before =>
      cases before with
      | nil =>
        simp only [moreMath, demoMath, List.cons_append, List.nil_append, List.cons.injEq] at hv
        rw [← hv.2.1] at hn
        simp at hn
      | cons w before => simp [moreMath, demoMath] at hv
  obtain ⟨rfl, rfl⟩ := this
  simp only [addAll, Except.ok.injEq] at hs
  subst hs
  refine ⟨?_, by simp⟩
  simp only [buildVariable] at hb
  split at hb
  · cases hb
  · split at hb
    · simp only [boundArr, Except.ok.injEq] at hb
      subst hb
      simp only [zip, scalar] at hl
      rename_i m _ _
      cases hB : m.val (pick (joinDims m.dims (joinDims [] [])) c m.dims) with
      | false => simp [hB] at hl
      | true =>
        simp only [hB, if_true, Option.some.injEq] at hl
        subst hl
        exact ⟨fun a ha => by cases ha; norm_num [plan], by simp⟩
    · cases hb
      cases hl

example : ∃ P, Feasible (plan 2) demoMath (demoState 5) P := by
  obtain ⟨P', h⟩ := more_plan
  obtain ⟨P, hP, _⟩ := C125_plan more_extended h
  exact ⟨P, hP⟩

/-- The name of an expression that is added stands in the math, for a parameter: `limit` becomes 9. -/
def shadowMath : Assemble.Math Rat :=
  { demoMath with globals := demoMath.globals ++ [single "limit" [] (.atom (.bool true)) (.arith (.num 9))] }

/-- C125: then what was no plan can become one. -/
theorem C125_shadowed : holdsB (demoState 5).W.coords (assemble (plan 4) demoMath (demoState 5)) = false ∧
    (assemble (plan 4) demoMath (demoState 5)).isOk = true ∧
    holdsB (demoState 5).W.coords (assemble (plan 4) shadowMath (demoState 5)) = true := by
  decide +kernel

end Demo

end Restrict
end Calliope
