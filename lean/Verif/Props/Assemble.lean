import Verif.Proofs.Assemble
import Verif.Props.DemoTools

/-!
# C111: what a change of data can reach
-/

namespace Calliope
namespace Assemble

open Grid Expr Build BaseMath Infix

variable {V : Type} [Field V] {M : Math V} {changed : String → Prop} {g g' : Given V} {s s' : State V}
  {P P' : Problem V}

/-- C111: a constraint or a global expression is the same, or fails the same way, if none of the arrays that stand in its
strings changes. -/
theorem C111_component (h : SameBut changed s s') (enum : List String → List String) (c : Component V)
    (hn : ∀ n ∈ ComponentNames c, ¬changed n) :
    buildConstraint s.W s.E enum c = buildConstraint s'.W s'.E enum c ∧
      buildExpression s.W s.E enum c = buildExpression s'.W s'.E enum c :=
  ⟨buildConstraint_frame h enum c hn, buildExpression_frame h enum c hn⟩

/-- C111: arrays of the problem that a change cannot reach are the same. -/
theorem C111_arrays (hg : SameGiven changed g g') (h : SameBut changed s s') (h1 : assemble g M s = .ok P)
    (h2 : assemble g' M s' = .ok P') {n : String} (hn : ¬Affected M changed n) :
    P.state.E.comp n = P'.state.E.comp n ∧ P.state.W.result n = P'.state.W.result n :=
  ⟨(assemble_frame hg h h1 h2).comp n hn, (assemble_frame hg h h1 h2).result n hn⟩

/-- C111: a constraint is the same unless it names an array that the change can reach. -/
theorem C111_constraint (hg : SameGiven changed g g') (h : SameBut changed s s') (h1 : assemble g M s = .ok P)
    (h2 : assemble g' M s' = .ok P') {i : Nat} {c : Component V} (hi : M.constraints[i]? = some c)
    (hn : ∀ n ∈ ComponentNames c, ¬Affected M changed n) : P.constraints[i]? = P'.constraints[i]? := by
  obtain ⟨b, hb, hm⟩ := keepAll_get (assemble_parts h1).1 i c hi
  obtain ⟨b', hb', hm'⟩ := keepAll_get (assemble_parts h2).1 i c hi
  rw [buildConstraint_frame (assemble_frame hg h h1 h2) _ c hn, hg.enum, hm'] at hm
  rw [hb, hb', Except.ok.inj hm]

/-- C111: an objective is the same unless it names an array that the change can reach. -/
theorem C111_objective (hg : SameGiven changed g g') (h : SameBut changed s s') (h1 : assemble g M s = .ok P)
    (h2 : assemble g' M s' = .ok P') {i : Nat} {c : Component V} (hi : M.objectives[i]? = some c)
    (hn : ∀ n ∈ ComponentNames c, ¬Affected M changed n) : P.objectives[i]? = P'.objectives[i]? := by
  obtain ⟨b, hb, hm⟩ := keepAll_get (assemble_parts h1).2 i c hi
  obtain ⟨b', hb', hm'⟩ := keepAll_get (assemble_parts h2).2 i c hi
  rw [buildExpression_frame (assemble_frame hg h h1 h2) _ c hn, hg.enum, hm'] at hm
  rw [hb, hb', Except.ok.inj hm]

/-! ### Data that nothing uses -/

/-- Both fail the same way, or both succeed with related results. -/
def Both {α β : Type} (R : α → β → Prop) : Except Err α → Except Err β → Prop
  | .ok a, .ok b => R a b
  | .error e, .error e' => e = e'
  | _, _ => False

omit [Field V] in
theorem addAll_both {α : Type} {add : State V → α → Except Err (State V)} : ∀ (l : List α) {s s' : State V},
    SameBut changed s s' →
    (∀ a ∈ l, ∀ {u u' : State V}, SameBut changed u u' → Both (SameBut changed) (add u a) (add u' a)) →
    Both (SameBut changed) (addAll add s l) (addAll add s' l)
  | [], _, _, h, _ => h
  | a :: l, s, s', h, hstep => by
    have hb := hstep a List.mem_cons_self h
    simp only [addAll]
    cases h1 : add s a with
    | error e => cases h2 : add s' a with
      | error e' => simpa [h1, h2, Both] using hb
      | ok w' => simp [h1, h2, Both] at hb
    | ok w => cases h2 : add s' a with
      | error e' => simp [h1, h2, Both] at hb
      | ok w' =>
        rw [h1, h2] at hb
        exact addAll_both l hb (fun b hb => hstep b (List.mem_cons_of_mem _ hb))

omit [Field V] in
theorem keepAll_same {α β : Type} {make make' : α → Except Err β} : ∀ (l : List α), (∀ a ∈ l, make a = make' a) →
    keepAll make l = keepAll make' l
  | [], _ => rfl
  | a :: l, h => by
    simp only [keepAll, h a List.mem_cons_self, keepAll_same l (fun b hb => h b (List.mem_cons_of_mem _ hb))]

/-- C111: data that stands in no string of the math makes no difference: the same constraints and objectives, or the same
failure. -/
theorem C111_unused (h : SameBut changed s s') (hv : ∀ v ∈ M.vars, ∀ n ∈ VariableNames v, ¬changed n)
    (hc : ∀ c ∈ M.globals ++ M.constraints ++ M.objectives, ∀ n ∈ ComponentNames c, ¬changed n) :
    Both (fun P P' => P.constraints = P'.constraints ∧ P.objectives = P'.objectives)
      (assemble g M s) (assemble g M s') := by
  have b1 : Both (SameBut changed) (addAll (addVariable g) s M.vars) (addAll (addVariable g) s' M.vars) := by
    refine addAll_both M.vars h ?_
    intro v hvm u u' hu
    simp only [addVariable, buildVariable_frame hu v (hv v hvm)]
    cases buildVariable u'.W u'.E v with
    | error e => rfl
    | ok b => exact hu.put_same _ _ _
  simp only [assemble]
  cases h1 : addAll (addVariable g) s M.vars with
  | error e => cases h2 : addAll (addVariable g) s' M.vars with
    | error e' => simpa [h1, h2, Both] using b1
    | ok w' => simp [h1, h2, Both] at b1
  | ok s1 => cases h2 : addAll (addVariable g) s' M.vars with
    | error e' => simp [h1, h2, Both] at b1
    | ok s1' =>
      rw [h1, h2] at b1
      have b1 : SameBut changed s1 s1' := b1
      have b2 : Both (SameBut changed) (addAll (addGlobal g) s1 M.globals) (addAll (addGlobal g) s1' M.globals) := by
        refine addAll_both M.globals b1 ?_
        intro c hcm u u' hu
        simp only [addGlobal, buildExpression_frame hu g.enum c (hc c (by simp [hcm]))]
        cases buildExpression u'.W u'.E g.enum c with
        | error e => rfl
        | ok b => exact hu.put_same _ _ _
      simp only
      cases h3 : addAll (addGlobal g) s1 M.globals with
      | error e => cases h4 : addAll (addGlobal g) s1' M.globals with
        | error e' => simpa [h3, h4, Both] using b2
        | ok w' => simp [h3, h4, Both] at b2
      | ok s2 => cases h4 : addAll (addGlobal g) s1' M.globals with
        | error e' => simp [h3, h4, Both] at b2
        | ok s2' =>
          rw [h3, h4] at b2
          have b2 : SameBut changed s2 s2' := b2
          simp only
          rw [keepAll_same M.constraints (fun c hcm => buildConstraint_frame b2 g.enum c (hc c (by simp [hcm]))),
            keepAll_same M.objectives (fun c hcm => buildExpression_frame b2 g.enum c (hc c (by simp [hcm])))]
          cases keepAll (buildConstraint s2'.W s2'.E g.enum) M.constraints with
          | error e => rfl
          | ok cs =>
            simp only
            cases keepAll (buildExpression s2'.W s2'.E g.enum) M.objectives with
            | error e => rfl
            | ok os => exact ⟨rfl, rfl⟩

/-! ### A small problem -/

section Demo

/-- `out <= limit`, `2 * out >= demand` through a global expression, and the cost of `out`. -/
def demoMath : Math Rat where
  vars := [⟨"out", ["techs"], .atom (.bool true), false, .num 0, .unbounded⟩]
  globals := [single "twice" ["techs"] (.atom (.bool true)) (.arith (.chain (.num 2) (.one .times (.comp "out")))),
    single "need" [] (.atom (.bool true)) (.arith (.chain (.comp "demand") (.one .times (.num 1))))]
  constraints := [single "max" ["techs"] (.atom (.input "limit")) (.cmp (.comp "out") "<=" (.comp "limit")),
    single "min" [] (.atom (.bool true)) (.cmp (.sum (.comp "twice") ["techs"]) ">=" (.comp "need"))]
  objectives := [single "cost" [] (.atom (.bool true)) (.arith (.sum (.comp "out") ["techs"]))]

def demoMini (demand : Rat) : Mini where
  labels := [("techs", ["a", "b"])]
  data := [("limit", ["techs"], fun _ => 3), ("demand", [], fun _ => demand)]
  lookups := []
  inputs := [("limit", ⟨.number, ⟨["techs"], fun _ => .num 3⟩, .nan⟩), ("demand", ⟨.number, scalar (.num demand), .nan⟩)]
  results := []
  along := ["techs"]
  items := [["a"], ["b"]]

def demoState (demand : Rat) : State Rat := ⟨(demoMini demand).W, (demoMini demand).E⟩

def demoGiven : Given Rat := ⟨fun _ _ => 2, fun _ => none, List.dedup⟩

theorem demo_same (a b : Rat) : SameBut (· = "demand") (demoState a) (demoState b) where
  dims := rfl
  coords := rfl
  config := rfl
  matrix := rfl
  arith := rfl
  input n hn := by simp [demoState, demoMini, Mini.W, List.lookup, beq_false_of_ne hn]
  result _ _ := rfl
  number n hn := by
    show (demoMini a).number n = (demoMini b).number n
    simp [demoMini, Mini.number, List.lookup]
  sums _ _ := rfl
  ecoords := rfl
  isDim := rfl
  period := rfl
  op := rfl
  neg := rfl
  truthy := rfl
  comp n hn := by simp [demoState, demoMini, Mini.E, List.lookup, beq_false_of_ne hn]
  lookup _ _ := rfl
  carrier _ _ := rfl

/-- What a problem has in one item of a constraint. -/
def cellAt (r : Except Err (Problem Rat)) (i : Nat) (c : List Label) : Option (Option (Option Rat × String × Option Rat)) :=
  match r with
  | .ok P => (P.constraints[i]?).map (fun a => (a.val c).map (fun x => (x.lhs, x.op, x.rhs)))
  | .error _ => none

/-- The problem is built; `min` changes with the demand, which it names through `need`. -/
theorem demo_min : cellAt (assemble demoGiven demoMath (demoState 5)) 1 [] = some (some (some 8, ">=", some 5)) ∧
    cellAt (assemble demoGiven demoMath (demoState 7)) 1 [] = some (some (some 8, ">=", some 7)) := by
  decide +kernel

theorem demo_max : cellAt (assemble demoGiven demoMath (demoState 5)) 0 ["a"] = some (some (some 2, "<=", some 3)) := by
  decide +kernel

/-- `need` is reached, `limit` and `out` are not: `max` and the cost are the same for all demands. -/
theorem demo_reached : Affected demoMath (· = "demand") "need" :=
  .byGlobal (c := demoMath.globals[1]) (n := "demand") (by simp) (by decide +kernel) (.start rfl)

theorem demo_unreached {n : String} (h : Affected demoMath (· = "demand") n) : n = "demand" ∨ n = "need" := by
  induction h with
  | start h => exact .inl h
  | byVariable hv hn _ ih =>
    simp only [demoMath, List.mem_singleton] at hv
    subst hv
    simp [VariableNames, CondNames, LeafNames, BoundNames] at hn
  | byGlobal hc hn _ ih =>
    simp only [demoMath, List.mem_cons, List.not_mem_nil, or_false] at hc
    rcases hc with rfl | rfl
    · simp [ComponentNames, single, always, CondNames, LeafNames, BodyNames, Names, NamesRest] at hn
      subst hn
      simp at ih
    · exact .inr rfl

example (a b : Rat) (P P' : Problem Rat) (h1 : assemble demoGiven demoMath (demoState a) = .ok P)
    (h2 : assemble demoGiven demoMath (demoState b) = .ok P') :
    P.constraints[0]? = P'.constraints[0]? ∧ P.objectives[0]? = P'.objectives[0]? := by
  have hg : SameGiven (· = "demand") demoGiven demoGiven := ⟨fun _ _ => rfl, fun _ _ => rfl, rfl⟩
  refine ⟨C111_constraint hg (demo_same a b) h1 h2 (c := demoMath.constraints[0]) rfl ?_,
    C111_objective hg (demo_same a b) h1 h2 (c := demoMath.objectives[0]) rfl ?_⟩
  · intro n hn h
    simp [demoMath, ComponentNames, single, always, CondNames, LeafNames, BodyNames, Names] at hn
    rcases demo_unreached h with rfl | rfl <;> simp at hn
  · intro n hn h
    simp [demoMath, ComponentNames, single, always, CondNames, LeafNames, BodyNames, Names] at hn
    rcases demo_unreached h with rfl | rfl <;> simp at hn

/-- Both problems are built. -/
theorem demo_built : Mini.isOk (assemble demoGiven demoMath (demoState 5)) = true ∧
    Mini.isOk (assemble demoGiven demoMath (demoState 7)) = true := by decide +kernel

end Demo

end Assemble
end Calliope
