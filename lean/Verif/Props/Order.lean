import Verif.Proofs.Order
import Verif.Props.Decisions

/-!
# C113: the order of components
-/

namespace Calliope
namespace Assemble

open Grid Expr Build BaseMath Infix Expand MathText

variable {V : Type} [Field V] {M M' : Math V} {g : Given V} {s s1 : State V} {P : Problem V}

theorem addVariable_step (g : Given V) : addVariable g =
    step Variable.name (fun v => g.default v.name)
      (fun s v => (buildVariable s.W s.E v).map (valued (g.x v.name))) := by
  funext s v
  simp only [addVariable, step]
  cases buildVariable s.W s.E v <;> rfl

theorem addGlobal_step (g : Given V) : addGlobal g =
    step (fun c : Component V => c.defn.name) (fun c => g.default c.defn.name)
      (fun s c => buildExpression s.W s.E g.enum c) := by
  funext s c
  simp only [addGlobal, step]
  cases buildExpression s.W s.E g.enum c <;> rfl

/-- C113: the same components in another order, with no component before one that it names, are built to the same
problem: the same arrays, the same constraints, the same objectives. -/
theorem C113_order (hr : Reordered M M') (ho : Ordered M) (ho' : Ordered M') (h : assemble g M s = .ok P) :
    ∃ P', assemble g M' s = .ok P' ∧ P'.state = P.state ∧
      (M.constraints.zip P.constraints).Perm (M'.constraints.zip P'.constraints) ∧
      (M.objectives.zip P.objectives).Perm (M'.objectives.zip P'.objectives) := by
  simp only [assemble] at h
  split at h
  · cases h
  rename_i t1 h1
  split at h
  · cases h
  rename_i t2 h2
  split at h
  · cases h
  rename_i cs hcs
  split at h
  · cases h
  rename_i os hos
  simp only [Except.ok.injEq] at h
  subst h
  obtain ⟨cs', hcs', pc⟩ := keepAll_perm hr.constraints hcs
  obtain ⟨os', hos', po⟩ := keepAll_perm hr.objectives hos
  rw [addVariable_step] at h1
  rw [addGlobal_step] at h2
  have h1' := addAll_perm (fun hs v hv => by simp only [buildVariable_frame hs v hv]) hr.vars ho.vars ho'.vars
    ho.varNames h1
  have h2' := addAll_perm (fun hs c hc => buildExpression_frame hs g.enum c hc) hr.globals ho.globals ho'.globals
    ho.globalNames h2
  refine ⟨⟨t2, cs', os'⟩, ?_, rfl, pc, po⟩
  simp only [assemble]
  rw [addVariable_step, addGlobal_step, h1']
  simp only
  rw [h2']
  simp only
  rw [hcs']
  simp only
  rw [hos']

/-- C113: in a problem whose components are well ordered, where no variable names a global expression or has the name of
one, every definition holds at the end: each variable has items exactly where its condition holds in the finished
problem, with the values of the decisions, and each global expression is what its definition gives there. -/
theorem C113_consistent (ho : Ordered M)
    (ha : ∀ v ∈ M.vars, ∀ c ∈ M.globals, c.defn.name ≠ v.name ∧ c.defn.name ∉ VariableNames v)
    (h : assemble g M s = .ok P) :
    (∀ v ∈ M.vars, ∃ b a m, buildVariable P.state.W P.state.E v = .ok b ∧
      P.state.E.comp v.name = some ⟨a, g.default v.name⟩ ∧ P.state.W.result v.name = some m ∧
      a.dims = b.dims ∧ m.dims = b.dims ∧ ∀ c, (a.val c = if (b.val c).isSome then some (g.x v.name c) else none) ∧
        m.val c = (b.val c).isSome) ∧
    (∀ c ∈ M.globals, ∃ b m, buildExpression P.state.W P.state.E g.enum c = .ok b ∧
      P.state.E.comp c.defn.name = some ⟨b, g.default c.defn.name⟩ ∧ P.state.W.result c.defn.name = some m ∧
      m.dims = b.dims ∧ ∀ i, m.val i = (b.val i).isSome) := by
  simp only [assemble] at h
  split at h
  · cases h
  rename_i t1 h1
  split at h
  · cases h
  rename_i t2 h2
  split at h
  · cases h
  split at h
  · cases h
  simp only [Except.ok.injEq] at h
  subst h
  rw [addVariable_step] at h1
  rw [addGlobal_step] at h2
  obtain ⟨_, _, m1⟩ := addAll_made (fun hs v hv => by simp only [buildVariable_frame hs v hv]) M.vars ho.vars ho.varNames h1
  obtain ⟨f2, _, m2⟩ := addAll_made (fun hs c hc => buildExpression_frame hs g.enum c hc) M.globals ho.globals
    ho.globalNames h2
  constructor
  · intro v hv
    obtain ⟨a, e1, e2, e3⟩ := m1 v hv
    simp only at e1
    have hn : ¬Named (fun c : Component V => c.defn.name) M.globals v.name := by
      rintro ⟨c, hc, hcn⟩
      exact (ha v hv c hc).1 hcn
    have hb : buildVariable t1.W t1.E v = buildVariable t2.W t2.E v := by
      refine buildVariable_frame f2 v ?_
      rintro n hn ⟨c, hc, rfl⟩
      exact (ha v hv c hc).2 hn
    cases hbv : buildVariable t1.W t1.E v with
    | error e =>
      rw [hbv] at e1
      cases e1
    | ok b =>
      rw [hbv] at e1
      cases e1
      refine ⟨b, _, _, hb ▸ hbv, (f2.comp _ hn).symm.trans e2, (f2.result _ hn).symm.trans e3, rfl, rfl, fun c => ?_⟩
      simp only [valued, map]
      cases b.val c <;> simp
  · intro c hc
    obtain ⟨b, e1, e2, e3⟩ := m2 c hc
    exact ⟨b, _, e1, e2, e3, rfl, fun _ => rfl⟩

/-- C113: a variable or global expression that stands in the condition of a component, or in an expression of an equation
that applies somewhere, has been built: there is no default for one that has not. -/
theorem C113_condition {enum : List String → List String} {c : Component V} {b : Arr (Option V)}
    (h : buildExpression s.W s.E enum c = .ok b)
    (hf : anyCell s.W.coords (Where.foreachMask s.W c.foreach) = true) :
    ∀ n ∈ Results c.top, (s.W.result n).isSome := by
  simp only [buildExpression, build] at h
  split at h
  · cases h
  rename_i t ht
  simp only [Where.topLevel, hf, if_true] at ht
  split at ht
  · cases ht
  rename_i a ha
  simp only [Where.evalWheres] at ha
  split at ha
  · cases ha
  rename_i d hd
  exact evalTree_exists c.top d hd

theorem buildLoop_exists {c : Component V} : ∀ (es : List (Equation V Cond)) {acc b : Arr (Option V)},
    buildLoop s.W c (setExpression s.E) acc es = .ok b → ∀ e ∈ es, ∀ m,
      Where.equationMask s.W c.foreach c.top e.wheres = .ok (some m) → ∃ a, setExpression s.E e m = .ok a
  | [], _, _, _, e, he, _, _ => by cases he
  | e' :: es, acc, b, h, e, he, m, hm => by
    simp only [buildLoop] at h
    rcases List.mem_cons.1 he with rfl | he
    · rw [hm] at h
      simp only at h
      split at h
      · cases h
      · split at h
        · cases h
        · rename_i a ha
          exact ⟨a, ha⟩
    · split at h
      · cases h
      · exact buildLoop_exists es h e he m hm
      · split at h
        · cases h
        · split at h
          · cases h
          · exact buildLoop_exists es h e he m hm

theorem C113_operand {enum : List String → List String} {c : Component V} {b : Arr (Option V)}
    (h : buildExpression s.W s.E enum c = .ok b) {es : List (Equation V Cond)}
    (hp : parseEquations enum c.defn = .ok es) {e : Equation V Cond} (he : e ∈ es) {m : Arr Bool}
    (hm : Where.equationMask s.W c.foreach c.top e.wheres = .ok (some m)) {t : Ex V} (ht : e.body = .arith t) :
    ∀ n ∈ Operands t, Exists s n := by
  have ha : ∃ w, Where.topLevel s.W c.foreach c.top = .ok w ∧ anyCell s.W.coords w = true := by
    simp only [Where.equationMask] at hm
    split at hm
    · cases hm
    · rename_i w hw
      split at hm
      · rename_i ha
        exact ⟨w, hw, ha⟩
      · cases hm
  obtain ⟨w, hw, ha⟩ := ha
  simp only [buildExpression, build, hw, ha, if_true, hp] at h
  obtain ⟨a, ha⟩ := buildLoop_exists es h e he m hm
  simp only [setExpression, ht] at ha
  split at ha
  · cases ha
  rename_i d hd
  simp only [evalExpression] at hd
  split at hd
  · cases hd
  rename_i d' hd'
  exact evalEx_exists t m d' hd'

omit [Field V] in
theorem addAll_append {α : Type} {add : State V → α → Except Err (State V)} : ∀ (l l' : List α) {s s1 : State V},
    addAll add s l = .ok s1 → addAll add s (l ++ l') = addAll add s1 l'
  | [], _, _, _, h => by
    simp only [addAll, Except.ok.injEq] at h
    simp [h]
  | a :: l, l', s, s1, h => by
    simp only [addAll] at h
    split at h
    · cases h
    · rename_i s' hs'
      simp only [List.cons_append, addAll, hs']
      exact addAll_append l l' h

/-- C113: a component that is built before one that stands in its expression is an error, whatever the data: with what has
been built before it, `s1`, in which that component is missing, the problem cannot be built. -/
theorem C113_late {l l' : List (Component V)} {c : Component V} (h1 : addAll (addGlobal g) s l = .ok s1)
    {n : String} (hn : ¬Exists s1 n) {es : List (Equation V Cond)} (hp : parseEquations g.enum c.defn = .ok es)
    {e : Equation V Cond} (he : e ∈ es) {m : Arr Bool}
    (hm : Where.equationMask s1.W c.foreach c.top e.wheres = .ok (some m)) {t : Ex V} (ht : e.body = .arith t)
    (hnt : n ∈ Operands t) : ∃ err, addAll (addGlobal g) s (l ++ c :: l') = .error err := by
  rw [addAll_append l _ h1]
  simp only [addAll, addGlobal]
  cases hb : buildExpression s1.W s1.E g.enum c with
  | error err => exact ⟨err, rfl⟩
  | ok b => exact absurd (C113_operand hb hp he hm ht n hnt) hn

/-- C113: so it is if it stands in the condition of the component. -/
theorem C113_late_condition {l l' : List (Component V)} {c : Component V} (h1 : addAll (addGlobal g) s l = .ok s1)
    {n : String} (hn : s1.W.result n = none) (hnt : n ∈ Results c.top)
    (hf : anyCell s1.W.coords (Where.foreachMask s1.W c.foreach) = true) :
    ∃ err, addAll (addGlobal g) s (l ++ c :: l') = .error err := by
  rw [addAll_append l _ h1]
  simp only [addAll, addGlobal]
  cases hb : buildExpression s1.W s1.E g.enum c with
  | error err => exact ⟨err, rfl⟩
  | ok b => simpa [hn] using C113_condition hb hf n hnt

/-! ### The shipped math -/

/-- Nothing names itself or something later, computed. -/
def wellOrdered {α : Type} (name : α → String) (uses : α → List String) : List α → Bool
  | [] => true
  | a :: l => (uses a).all (fun n => !((a :: l).map name).contains n) && wellOrdered name uses l

theorem wellOrdered_sound {α : Type} {name : α → String} {uses : α → List String} : ∀ {l : List α},
    wellOrdered name uses l = true → WellOrdered name uses l
  | [], _ => trivial
  | a :: l, h => by
    simp only [wellOrdered, Bool.and_eq_true, List.all_eq_true] at h
    refine ⟨?_, wellOrdered_sound h.2⟩
    intro b hb hn
    have := h.1 _ hn
    simp only [Bool.not_eq_true', List.contains_eq_mem, decide_eq_false_iff_not] at this
    exact this (List.mem_map.2 ⟨b, hb, rfl⟩)

def ordered {V : Type} (M : Math V) : Bool :=
  wellOrdered Variable.name VariableNames M.vars &&
    wellOrdered (fun c : Component V => c.defn.name) ComponentNames M.globals &&
    decide (M.vars.map Variable.name).Nodup && decide (M.globals.map (fun c => c.defn.name)).Nodup

theorem ordered_sound {V : Type} {M : Math V} (h : ordered M = true) : Ordered M := by
  simp only [ordered, Bool.and_eq_true, decide_eq_true_eq] at h
  exact ⟨wellOrdered_sound h.1.1.1, wellOrdered_sound h.1.1.2, h.1.2, h.2⟩

/-- C113: the shipped math, as it is read, names only what is built before: base mode. -/
theorem C113_base : ∃ M, (buildMath shipped (priority (chars! "base") [])).bind File.read = some M ∧
    Ordered (ofRead M) :=
  ⟨_, C103_base, ordered_sound (by decide +kernel)⟩

/-- C113: with `milp`. -/
theorem C113_milp : ∃ M, (buildMath shipped (priority (chars! "base") [chars! "milp"])).bind File.read = some M ∧
    Ordered (ofRead M) :=
  ⟨_, C103_milp, ordered_sound (by decide +kernel)⟩

/-- C113: operate mode. -/
theorem C113_operate : ∃ M, (buildMath shipped (priority (chars! "operate") [])).bind File.read = some M ∧
    Ordered (ofRead M) :=
  ⟨_, C103_operate, ordered_sound (by decide +kernel)⟩

/-- C113: operate mode with `milp`. -/
theorem C113_operate_milp :
    ∃ M, (buildMath shipped (priority (chars! "operate") [chars! "milp"])).bind File.read = some M ∧
      Ordered (ofRead M) :=
  ⟨_, C112_operate_milp_math, ordered_sound (by decide +kernel)⟩

/-- C113: SPORES mode. -/
theorem C113_spores : ∃ M, (buildMath shipped (priority (chars! "spores") [])).bind File.read = some M ∧
    Ordered (ofRead M) :=
  ⟨_, C103_spores, ordered_sound (by decide +kernel)⟩

/-- C113: `storage_inter_cluster`. -/
theorem C113_inter_cluster :
    ∃ M, (buildMath shipped (priority (chars! "base") [chars! "storage_inter_cluster"])).bind File.read = some M ∧
      Ordered (ofRead M) :=
  ⟨_, C103_inter_cluster, ordered_sound (by decide +kernel)⟩

/-! ### A small problem -/

section Demo

/-- The two global expressions and the two constraints of the small problem, the other way round. -/
def demoOther : Math Rat := { demoMath with globals := demoMath.globals.reverse, constraints := demoMath.constraints.reverse }

theorem demo_ordered : Ordered demoMath ∧ Ordered demoOther :=
  ⟨ordered_sound (by decide +kernel), ordered_sound (by decide +kernel)⟩

theorem demo_reordered : Reordered demoMath demoOther :=
  ⟨.refl _, (List.reverse_perm _).symm, (List.reverse_perm _).symm, .refl _⟩

example (d : Rat) (P : Problem Rat) (h : assemble demoGiven demoMath (demoState d) = .ok P) :
    ∃ P', assemble demoGiven demoOther (demoState d) = .ok P' ∧ P'.state = P.state := by
  obtain ⟨P', h1, h2, _⟩ := C113_order demo_reordered demo_ordered.1 demo_ordered.2 h
  exact ⟨P', h1, h2⟩

/-- The finished small problem: `twice` is what its definition gives. -/
example (d : Rat) (P : Problem Rat) (h : assemble demoGiven demoMath (demoState d) = .ok P) :
    ∃ c b, c ∈ demoMath.globals ∧ buildExpression P.state.W P.state.E demoGiven.enum c = .ok b ∧
      P.state.E.comp "twice" = some ⟨b, demoGiven.default "twice"⟩ := by
  obtain ⟨b, _, h1, h2, _⟩ := (C113_consistent demo_ordered.1 (by decide +kernel) h).2 demoMath.globals[0]
    (by simp [demoMath])
  exact ⟨_, b, by simp [demoMath], h1, h2⟩

/-- The hypothesis of `C113_consistent` holds of base mode. -/
theorem base_apart : ∃ M, (buildMath shipped (priority (chars! "base") [])).bind File.read = some M ∧
    Ordered (ofRead M) ∧ ∀ v ∈ (ofRead M).vars, ∀ c ∈ (ofRead M).globals,
      c.defn.name ≠ v.name ∧ c.defn.name ∉ VariableNames v :=
  ⟨_, C103_base, ordered_sound (by decide +kernel), by decide +kernel⟩

/-- A global expression of twice something that is built after it. -/
def demoLate : Component Rat :=
  single "early" ["techs"] (.atom (.bool true)) (.arith (.chain (.num 2) (.one .times (.comp "twice"))))

def failed {α : Type} (r : Except Err α) : Option Err :=
  match r with
  | .ok _ => none
  | .error e => some e

theorem demo_late : failed (assemble demoGiven { demoMath with globals := demoLate :: demoMath.globals } (demoState 5)) =
    some .backendError := by decide +kernel

theorem demo_in_time : failed (assemble demoGiven { demoMath with globals := demoMath.globals ++ [demoLate] } (demoState 5)) =
    none := by decide +kernel

example : ¬Ordered { demoMath with globals := demoLate :: demoMath.globals } := by
  intro h
  exact h.globals.1 demoMath.globals[0] (by simp [demoMath]) (by decide +kernel)

end Demo

end Assemble
end Calliope
