import Verif.Proofs.Linear
import Verif.Props.Decisions
import Mathlib.Tactic.Linarith
import Mathlib.Tactic.NormNum

/-!
# C117: the problem is linear
-/

namespace Calliope
namespace Linear

open Grid Expr Build BaseMath Assemble Infix MathText

section General

variable {V : Type} [Field V] {t u : V} {s : State V} {g g' : Given V} {M : Math V} {P P' : Problem V}

/-- C117: in a problem of linear math, both sides of every item of a constraint, and every objective, are mixed if decisions
are: with `t` parts of one and `u` parts of the other, they are `t` parts of the one and `u` parts of the other.  Whether
the problem can be built and which items it has does not depend on the values of decisions. -/
theorem C117_mixed (ht : t + u = 1) (hM : LinearMath M) (hE : Plain s.E) (hg : SamePlace g g')
    (h : assemble g M s = .ok P) : ∃ P' P'', assemble g' M s = .ok P' ∧ assemble (mixed t u g g') M s = .ok P'' ∧
      P'.constraints.length = P.constraints.length ∧ P''.constraints.length = P.constraints.length ∧
      (∀ (i : Nat) a b c, P.constraints[i]? = some a → P'.constraints[i]? = some b → P''.constraints[i]? = some c →
        Items (CellMixture t u) a b c) ∧
      P'.objectives.length = P.objectives.length ∧ P''.objectives.length = P.objectives.length ∧
      (∀ (i : Nat) a b c, P.objectives[i]? = some a → P'.objectives[i]? = some b → P''.objectives[i]? = some c →
        Items (Mixture t u) a b c) := by
  obtain ⟨depends, hM⟩ := hM
  rcases (assemble_rel (s := s) ht hM hE hg).cases with ⟨e, e1, _, _⟩ | ⟨a, b, c, e1, e2, e3, h1, h2⟩
  · rw [e1] at h
    cases h
  · rw [e1] at h
    cases h
    exact ⟨b, c, e2, e3, h1.1, h1.2.1, h1.2.2, h2.1, h2.2.1, h2.2.2⟩

/-- C117: a problem cannot be built with some decisions exactly if it cannot be built with any, for the same reason. -/
theorem C117_fails (hM : LinearMath M) (hE : Plain s.E) (hg : SamePlace g g') (e : Err) :
    assemble g M s = .error e ↔ assemble g' M s = .error e := by
  obtain ⟨depends, hM⟩ := hM
  rcases (assemble_rel (s := s) (t := 1) (u := 0) (by ring) hM hE hg).cases with
    ⟨e', e1, e2, _⟩ | ⟨a, b, c, e1, e2, _, _⟩
  · rw [e1, e2]
  · rw [e1, e2]
    constructor <;> intro h <;> cases h

end General

section Ordered

variable {V : Type} [Field V] [LinearOrder V] [IsStrictOrderedRing V] {t u : V} {s : State V} {g g' : Given V} {M : Math V}
  {P P' : Problem V}

theorem satisfied_mixed (h0 : 0 ≤ t) (h1 : 0 ≤ u) {a b c : Option (Cell V)} (h : CellMixture t u a b c) {x y z : Cell V}
    (ha : a = some x) (hb : b = some y) (hc : c = some z) (hx : Satisfied x) (hy : Satisfied y) : Satisfied z := by
  cases h with
  | missing => cases ha
  | present o l r =>
    cases ha
    cases hb
    cases hc
    obtain ⟨p, q, e1, e2, ho⟩ := hx
    obtain ⟨p', q', e1', e2', ho'⟩ := hy
    simp only at e1 e2 e1' e2' ho ho'
    subst e1 e2 e1' e2'
    cases l
    cases r
    refine ⟨_, _, rfl, rfl, ?_⟩
    simp only
    rcases ho with ⟨rfl, h⟩ | ⟨rfl, h⟩ | ⟨rfl, h⟩
    · have h' : p' ≤ q' := by simpa using ho'
      exact .inl ⟨rfl, add_le_add (mul_le_mul_of_nonneg_left h h0) (mul_le_mul_of_nonneg_left h' h1)⟩
    · have h' : q' ≤ p' := by simpa using ho'
      exact .inr (.inl ⟨rfl, add_le_add (mul_le_mul_of_nonneg_left h h0) (mul_le_mul_of_nonneg_left h' h1)⟩)
    · have h' : p' = q' := by simpa using ho'
      exact .inr (.inr ⟨rfl, by rw [h, h']⟩)

theorem mem_index {α : Type} {a : α} {l : List α} (h : a ∈ l) : ∃ i : Nat, l[i]? = some a := List.mem_iff_getElem?.1 h

theorem index_of_length {α β : Type} {l : List α} {l' : List β} (h : l'.length = l.length) {i : Nat} {a : α}
    (hi : l[i]? = some a) : ∃ b, l'[i]? = some b := by
  obtain ⟨hl, _⟩ := List.getElem?_eq_some_iff.1 hi
  exact ⟨l'[i]'(h ▸ hl), List.getElem?_eq_getElem _⟩

/-- C117: any mixture of two plans is a plan, and its objectives are the mixtures of theirs. -/
theorem C117_convex (ht : t + u = 1) (h0 : 0 ≤ t) (h1 : 0 ≤ u) (hM : LinearMath M) (hI : ∀ v ∈ M.vars, v.integer = false)
    (hE : Plain s.E) (hg : SamePlace g g') (h : Feasible g M s P) (h' : Feasible g' M s P') :
    ∃ P'', Feasible (mixed t u g g') M s P'' ∧ ∀ i a b, IsObjective P i a → IsObjective P' i b →
      IsObjective P'' i (t * a + u * b) := by
  obtain ⟨Q, P'', hQ, hP'', c1, c2, c3, o1, o2, o3⟩ := C117_mixed ht hM hE hg h.builds
  rw [h'.builds] at hQ
  cases hQ
  refine ⟨P'', ⟨hP'', ?_, ?_⟩, ?_⟩
  · intro z hz c hc k hk
    obtain ⟨i, hi⟩ := mem_index hz
    obtain ⟨x, hx⟩ := index_of_length c2.symm hi
    obtain ⟨y, hy⟩ := index_of_length c1 hx
    obtain ⟨d1, d2, hr⟩ := c3 i x y z hx hy hi
    have hrc := hr c
    rw [hk] at hrc
    have hxs : ∃ k', x.val c = some k' := by
      revert hrc
      generalize x.val c = X
      generalize y.val c = Y
      intro hrc
      cases hrc
      exact ⟨_, rfl⟩
    have hys : ∃ k', y.val c = some k' := by
      revert hrc
      generalize x.val c = X
      generalize y.val c = Y
      intro hrc
      cases hrc
      exact ⟨_, rfl⟩
    obtain ⟨kx, hkx⟩ := hxs
    obtain ⟨ky, hky⟩ := hys
    exact satisfied_mixed h0 h1 hrc hkx hky rfl
      (h.constraints x (List.mem_of_getElem? hx) c (d2 ▸ hc) kx hkx)
      (h'.constraints y (List.mem_of_getElem? hy) c (by rw [d1, ← d2]; exact hc) ky hky)
  · intro before v after s'' hv hs b hb c hc l hl
    obtain ⟨depends, hM⟩ := hM
    have hmem : ∀ w ∈ before, w ∈ M.vars := fun w hw => hv ▸ List.mem_append_left _ hw
    have hvm : v ∈ M.vars := hv ▸ List.mem_append_right _ List.mem_cons_self
    rcases (addAll_rel (add := addVariable g) (add' := addVariable g') (add'' := addVariable (mixed t u g g'))
      (fun a _ _ hx hy => addVariable_plain hx hy) before (states_same (depends := depends) ht s) hE
      fun w hw _ _ _ hs _ => addVariable_rel hs hg (hM.vars w (hmem w hw))).cases with
        ⟨y, _, _, e3⟩ | ⟨a, a', a'', e1, e2, e3, hs', _⟩
    · rw [hs] at e3
      cases e3
    · rw [hs] at e3
      cases e3
      obtain ⟨b1, b2⟩ := buildVariable_same hs' (hM.vars v hvm).2
      rw [hb] at b2
      obtain ⟨⟨p1, p2⟩, _⟩ := h.bounds before v after a hv e1 b b2.symm c hc l hl
      obtain ⟨⟨q1, q2⟩, _⟩ := h'.bounds before v after a' hv e2 b (b1.trans b2.symm) c hc l hl
      refine ⟨⟨?_, ?_⟩, fun hi => absurd (hI v hvm) (by simp [hi])⟩
      · intro x hx
        have hp := mul_le_mul_of_nonneg_left (p1 x hx) h0
        have hq := mul_le_mul_of_nonneg_left (q1 x hx) h1
        have : x = t * x + u * x := by linear_combination -x * ht
        simp only [mixed]
        linarith
      · intro x hx
        have hp := mul_le_mul_of_nonneg_left (p2 x hx) h0
        have hq := mul_le_mul_of_nonneg_left (q2 x hx) h1
        have : x = t * x + u * x := by linear_combination -x * ht
        simp only [mixed]
        linarith
  · rintro i a b ⟨A, hA, ha⟩ ⟨B, hB, hb⟩
    obtain ⟨C, hC⟩ := index_of_length o2 hA
    have hr := (o3 i A B C hA hB hC).2.2 []
    rw [ha, hb] at hr
    refine ⟨C, hC, ?_⟩
    generalize C.val [] = z at hr
    cases hr
    rfl

/-- C117: no plan is only locally the best.  If some plan is better by an objective that is minimised, then so is every
mixture with that plan, however small the part of it. -/
theorem C117_global (hM : LinearMath M) (hI : ∀ v ∈ M.vars, v.integer = false) (hE : Plain s.E) (hg : SamePlace g g')
    (h : Feasible g M s P) (h' : Feasible g' M s P') {i : Nat} {a b : V} (ha : IsObjective P i a) (hb : IsObjective P' i b)
    (hlt : b < a) (h0 : 0 < u) (h1 : u ≤ 1) :
    ∃ P'' c, Feasible (mixed (1 - u) u g g') M s P'' ∧ IsObjective P'' i c ∧ c < a := by
  obtain ⟨P'', hf, ho⟩ := C117_convex (t := 1 - u) (u := u) (by ring) (by linarith) h0.le hM hI hE hg h h'
  refine ⟨P'', _, hf, ho i a b ha hb, ?_⟩
  have := mul_lt_mul_of_pos_left hlt h0
  linarith

end Ordered

/-! ### The shipped math -/

/-- Arrays that depend on decisions. -/
def dependent {V : Type} (M : Math V) (n : String) : Bool := (reached (M.vars.map (·.name)) M.globals).contains n

def isLinear {V : Type} (M : Math V) : Bool :=
  M.vars.all (fun v => dependent M v.name && (BoundNames v.lower ++ BoundNames v.upper).all (fun n => !dependent M n)) &&
    M.globals.all (fun c => decide (componentKind (dependent M) c = some .fixed) ||
      (decide (componentKind (dependent M) c = some .linear) && dependent M c.defn.name)) &&
    M.constraints.all (fun c => (componentKind (dependent M) c).isSome) &&
    M.objectives.all (fun c => (componentKind (dependent M) c).isSome)

theorem isLinear_sound {V : Type} {M : Math V} (h : isLinear M = true) : LinearMath M := by
  simp only [isLinear, Bool.and_eq_true, List.all_eq_true, Bool.or_eq_true, decide_eq_true_eq, Bool.not_eq_true'] at h
  obtain ⟨⟨⟨h1, h2⟩, h3⟩, h4⟩ := h
  exact ⟨dependent M, h1, h2, fun c hc => by simpa [Option.isSome_iff_ne_none] using h3 c hc,
    fun c hc => by simpa [Option.isSome_iff_ne_none] using h4 c hc⟩

/-- C117: the base math is linear, without integer variables. -/
theorem C117_base : ∃ M, (buildMath shipped (priority (chars! "base") [])).bind File.read = some M ∧
    LinearMath (ofRead M) ∧ ∀ v ∈ M.vars, v.integer = false :=
  ⟨_, C103_base, isLinear_sound (by decide +kernel), by decide +kernel⟩

/-- C117: so is the math of operate mode. -/
theorem C117_operate : ∃ M, (buildMath shipped (priority (chars! "operate") [])).bind File.read = some M ∧
    LinearMath (ofRead M) ∧ ∀ v ∈ M.vars, v.integer = false :=
  ⟨_, C103_operate, isLinear_sound (by decide +kernel), by decide +kernel⟩

/-- C117: of SPORES mode. -/
theorem C117_spores : ∃ M, (buildMath shipped (priority (chars! "spores") [])).bind File.read = some M ∧
    LinearMath (ofRead M) ∧ ∀ v ∈ M.vars, v.integer = false :=
  ⟨_, C103_spores, isLinear_sound (by decide +kernel), by decide +kernel⟩

/-- C117: with `storage_inter_cluster`. -/
theorem C117_inter_cluster :
    ∃ M, (buildMath shipped (priority (chars! "base") [chars! "storage_inter_cluster"])).bind File.read = some M ∧
      LinearMath (ofRead M) ∧ ∀ v ∈ M.vars, v.integer = false :=
  ⟨_, C103_inter_cluster, isLinear_sound (by decide +kernel), by decide +kernel⟩

/-- C117: with `milp` there are integer variables, but constraints and objectives are linear. -/
theorem C117_milp : ∃ M, (buildMath shipped (priority (chars! "base") [chars! "milp"])).bind File.read = some M ∧
    LinearMath (ofRead M) ∧ ∃ v ∈ M.vars, v.integer = true :=
  ⟨_, C103_milp, isLinear_sound (by decide +kernel), by decide +kernel⟩

/-- C117: so it is in operate mode. -/
theorem C117_operate_milp :
    ∃ M, (buildMath shipped (priority (chars! "operate") [chars! "milp"])).bind File.read = some M ∧
      LinearMath (ofRead M) ∧ ∃ v ∈ M.vars, v.integer = true :=
  ⟨_, C112_operate_milp_math, isLinear_sound (by decide +kernel), by decide +kernel⟩

/-! ### Small problems -/

section Demo

theorem plain_mini (M : Mini) : Plain M.E where
  plus _ _ := rfl
  minus _ _ := rfl
  times _ _ := rfl
  div a b hb := by simp [Mini.E, Mini.op, hb]
  divZero a := by simp [Mini.E, Mini.op]
  left o b ho := by cases o <;> cases b <;> first | rfl | exact absurd rfl ho
  right o a ho := by cases o <;> cases a <;> first | rfl | exact absurd rfl ho
  neg _ := rfl
  negNone := rfl

/-- All constraints hold. -/
def satisfiedB (k : Cell Rat) : Bool :=
  match k.lhs, k.rhs with
  | some a, some b => (k.op == "<=" && decide (a ≤ b)) || (k.op == ">=" && decide (b ≤ a)) || (k.op == "==" && decide (a = b))
  | _, _ => false

theorem satisfiedB_iff (k : Cell Rat) : satisfiedB k = true ↔ Satisfied k := by
  unfold satisfiedB Satisfied
  cases k.lhs <;> cases k.rhs <;> simp [or_assoc]

def holdsB (coords : String → List Label) (r : Except Err (Problem Rat)) : Bool :=
  match r with
  | .ok P => P.constraints.all (fun a => (cells coords a.dims).all (fun c => (a.val c).all satisfiedB))
  | .error _ => false

def objectiveB (r : Except Err (Problem Rat)) (i : Nat) : Option Rat :=
  match r with
  | .ok P => (P.objectives[i]?).bind (fun a => a.val [])
  | .error _ => none

theorem holdsB_sound {coords : String → List Label} {r : Except Err (Problem Rat)} (h : holdsB coords r = true) :
    ∃ P, r = .ok P ∧ ∀ a ∈ P.constraints, ∀ c ∈ cells coords a.dims, ∀ k, a.val c = some k → Satisfied k := by
  unfold holdsB at h
  split at h
  · rename_i P
    refine ⟨P, rfl, ?_⟩
    intro a ha c hc k hk
    have := List.all_eq_true.1 (List.all_eq_true.1 h a ha) c hc
    rw [hk] at this
    exact (satisfiedB_iff k).1 this
  · cases h

/-- The small problem of C111, with the same outflow of both technologies. -/
def plan (x : Rat) : Given Rat := ⟨fun _ _ => x, fun _ => none, List.dedup⟩

theorem plan_bounds (x : Rat) (hx : 0 ≤ x) : ∀ before v after s', demoMath.vars = before ++ v :: after →
    addAll (addVariable (plan x)) (demoState 5) before = .ok s' →
    ∀ b, buildVariable s'.W s'.E v = .ok b → ∀ c ∈ cells (demoState 5).W.coords b.dims, ∀ l, b.val c = some l →
      Within ((plan x).x v.name c) l ∧ (v.integer = true → ∃ z : Int, (plan x).x v.name c = z) := by
  intro before v after s' hv hs b hb c hc l hl
  have : before = [] ∧ v = ⟨"out", ["techs"], .atom (.bool true), false, .num 0, .unbounded⟩ := by
    cases before with
    | nil =>
      simp only [demoMath, List.nil_append, List.cons.injEq] at hv
      exact ⟨rfl, hv.1.symm⟩
    | cons w before =>
      simp [demoMath] at hv
  obtain ⟨rfl, rfl⟩ := this
  simp only [addAll, Except.ok.injEq] at hs
  subst hs
  refine ⟨?_, by simp⟩
  simp only [buildVariable] at hb
  split at hb
  · cases hb
  · split at hb
    · simp only [boundArr, Except.ok.injEq] at hb
      subst hb
      simp only [zip, scalar] at hl
      rename_i m _ _
      cases hB : m.val (pick (joinDims m.dims (joinDims [] [])) c m.dims) with
      | false => simp [hB] at hl
      | true =>
        simp only [hB, if_true, Option.some.injEq] at hl
        subst hl
        exact ⟨fun a ha => by cases ha; exact hx, by simp⟩
    · cases hb
      cases hl

theorem plan_holds : holdsB (demoState 5).W.coords (assemble (plan 2) demoMath (demoState 5)) = true ∧
    holdsB (demoState 5).W.coords (assemble (plan 3) demoMath (demoState 5)) = true ∧
    objectiveB (assemble (plan 2) demoMath (demoState 5)) 0 = some 4 ∧
    objectiveB (assemble (plan 3) demoMath (demoState 5)) 0 = some 6 := by decide +kernel

theorem demo_linear : LinearMath demoMath := isLinear_sound (by decide +kernel)

theorem objectiveB_sound {P : Problem Rat} {i : Nat} {v : Rat} (h : objectiveB (.ok P) i = some v) : IsObjective P i v := by
  simp only [objectiveB, Option.bind_eq_some_iff] at h
  exact h

/-- Half of a plan that costs 4 and half of one that costs 6 are a plan that costs 5. -/
example : ∃ P, Feasible (mixed (1 / 2) (1 / 2) (plan 2) (plan 3)) demoMath (demoState 5) P ∧ IsObjective P 0 5 := by
  obtain ⟨h1, h2, h3, h4⟩ := plan_holds
  obtain ⟨P, e1, c1⟩ := holdsB_sound h1
  obtain ⟨Q, e2, c2⟩ := holdsB_sound h2
  rw [e1] at h3
  rw [e2] at h4
  obtain ⟨R, hR, ho⟩ := C117_convex (t := (1 / 2 : Rat)) (u := 1 / 2) (by norm_num) (by norm_num) (by norm_num) demo_linear
    (by simp [demoMath]) (plain_mini _) (g := plan 2) (g' := plan 3) ⟨rfl, rfl⟩ ⟨e1, c1, plan_bounds 2 (by norm_num)⟩
    ⟨e2, c2, plan_bounds 3 (by norm_num)⟩
  refine ⟨R, hR, ?_⟩
  have := ho 0 4 6 (objectiveB_sound h3) (objectiveB_sound h4)
  norm_num at this
  exact this

/-- `a * b <= 0` -/
def productMath : Math Rat where
  vars := [⟨"a", [], .atom (.bool true), false, .num 0, .unbounded⟩, ⟨"b", [], .atom (.bool true), false, .num 0, .unbounded⟩]
  globals := []
  constraints := [single "never_both" [] (.atom (.bool true)) (.cmp (.chain (.comp "a") (.one .times (.comp "b"))) "<="
    (.num 0))]
  objectives := [single "sum" [] (.atom (.bool true)) (.arith (.chain (.comp "a") (.one .plus (.comp "b"))))]

/-- One unit of one of them. -/
def only (m : String) : Given Rat := ⟨fun n _ => if n = m then 1 else 0, fun _ => none, List.dedup⟩

/-- C117: math that is not linear is built without complaint.  Then mixtures of plans need not be plans. -/
theorem C117_product : holdsB (demoState 5).W.coords (assemble (only "a") productMath (demoState 5)) = true ∧
    holdsB (demoState 5).W.coords (assemble (only "b") productMath (demoState 5)) = true ∧
    Mini.isOk (assemble (mixed (1 / 2) (1 / 2) (only "a") (only "b")) productMath (demoState 5)) = true ∧
    holdsB (demoState 5).W.coords (assemble (mixed (1 / 2) (1 / 2) (only "a") (only "b")) productMath (demoState 5)) =
      false := by
  decide +kernel

theorem product_not_linear : ¬LinearMath productMath := by
  rintro ⟨depends, h⟩
  have ha := (h.vars _ List.mem_cons_self).1
  have hb := (h.vars _ (List.mem_cons_of_mem _ List.mem_cons_self)).1
  refine h.constraints _ List.mem_cons_self ?_
  simp only at ha hb
  simp [componentKind, single, joinAll, bodyKind, kind, kindRest, ha, hb, combine]

end Demo

end Linear
end Calliope
