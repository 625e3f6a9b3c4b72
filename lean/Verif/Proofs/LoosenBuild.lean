import Verif.Proofs.Loosen
import Verif.Proofs.MeasureBuild

/-!
# Problems with looser limits
-/

namespace Calliope
namespace Loosen

open Grid Expr Build BaseMath Assemble Expand
open Linear (Plain)
open Units (Both Items items_eq items_isSome Among Along Masks Rules)

variable {V : Type} [Field V] [LinearOrder V] [IsStrictOrderedRing V] {D : String → Way} {E E' : Expr.Env V}

/-! ### Equations -/

theorem evalSide_rel (h : Envs D E E') (hE : Plain E) (hG : Grows E) {c : Component V} {e : Equation V Cond}
    (he : Among c e) (m : Arr Bool) (x : Ex V) {j : Way} (hj : way D (subWay D c.defn.subs) x = some j) :
    Both (Items (Moved j)) (evalSide E (fun n => e.slices.lookup n) (fun n => e.subs.lookup n) m x)
      (evalSide E' (fun n => e.slices.lookup n) (fun n => e.subs.lookup n) m x) := by
  refine evalEx_rel h hE hG ?_ x m j hj
  intro w n i hi
  simp only [evalSub]
  cases hs : e.subs.lookup n with
  | none => exact rfl
  | some s =>
    obtain ⟨l, v, hl, hm, _⟩ := he.subs n s hs
    obtain ⟨i', hi', hf⟩ := supAll_fits hi (way D (fun _ => none) s) (List.mem_map.2 ⟨(v, s),
      List.mem_flatMap.2 ⟨(n, l), List.mem_filter.2 ⟨hl, by simp⟩, hm⟩, rfl⟩)
    refine (evalEx_rel (j := i') h hE hG ?_ s w hi').mono fun a b hr => hr.mono fun x y hxy => hxy.fits hf
    intro _ _ _ h0
    cases h0

theorem setExpression_rel (h : Envs D E E') (hE : Plain E) (hG : Grows E) {c : Component V} {j : Way}
    (hj : ∀ e ∈ c.defn.equations, expressionOk D (subWay D c.defn.subs) j e.2 = true) {e : Equation V Cond} (he : Among c e)
    (m : Arr Bool) : Both (Items (Moved j)) (setExpression E e m) (setExpression E' e m) := by
  obtain ⟨w, hw, _⟩ := he.body
  have hi := hj _ hw
  simp only [setExpression]
  cases hb : e.body with
  | cmp _ _ _ => exact rfl
  | arith x =>
    simp only [hb, expressionOk, Option.any_eq_true] at hi
    obtain ⟨i, hi, hf⟩ := hi
    simp only [evalExpression]
    rcases (evalSide_rel h hE hG he m x hi).cases with ⟨y, e1, e2⟩ | ⟨a, b, e1, e2, hr⟩
    · simp only [e1, e2]; exact rfl
    · simp only [e1, e2]
      rw [Units.checkWhere_same h.coords m hr.1 (fun x => (hr.2 x).some)]
      cases checkWhere E m a with
      | error y => exact rfl
      | ok _ => exact maskArr_rel m (hr.mono fun x y hxy => hxy.fits hf)

/-- Both sides of an item of a constraint move apart. -/
inductive MovedCell : Option (Cell V) → Option (Cell V) → Prop where
  | missing : MovedCell none none
  | present {i j : Way} {a b a' b' : Option V} (o : String) : apart o (some i) (some j) = true → Moved i a a' →
      Moved j b b' → MovedCell (some ⟨a, o, b⟩) (some ⟨a', o, b'⟩)

theorem apart_some {o : String} {x y : Option Way} (h : apart o x y = true) : ∃ i j, x = some i ∧ y = some j := by
  cases x <;> cases y <;> simp [apart] at h ⊢

theorem setConstraint_rel (h : Envs D E E') (hE : Plain E) (hG : Grows E) {c : Component V}
    (hj : ∀ e ∈ c.defn.equations, constraintOk D (subWay D c.defn.subs) e.2 = true) {e : Equation V Cond} (he : Among c e)
    (m : Arr Bool) : Both (Items MovedCell) (setConstraint E e m) (setConstraint E' e m) := by
  obtain ⟨w, hw, _⟩ := he.body
  have hi := hj _ hw
  simp only [setConstraint]
  cases hb : e.body with
  | arith _ => exact rfl
  | cmp l o r =>
    simp only [hb, constraintOk] at hi
    obtain ⟨jl, jr, hl, hr⟩ := apart_some hi
    rw [hl, hr] at hi
    simp only [evalComparison]
    rcases (evalSide_rel h hE hG he m l hl).cases with ⟨y, e1, e2⟩ | ⟨a, b, e1, e2, h1⟩
    · simp only [e1, e2]; exact rfl
    · simp only [e1, e2]
      rcases (evalSide_rel h hE hG he m r hr).cases with ⟨y, e1, e2⟩ | ⟨a', b', e1, e2, h2⟩
      · simp only [e1, e2]; exact rfl
      · simp only [e1, e2, h1.1, h2.1]
        split_ifs
        · refine ⟨rfl, fun x => ?_⟩
          simp only [map]
          split_ifs
          · exact .present o hi (h1.2 _) (h2.2 _)
          · exact .missing
        · exact rfl
        · exact rfl

/-! ### Components -/

theorem MovedCell.some {a b : Option (Cell V)} (h : MovedCell a b) : b.isSome = a.isSome := by
  cases h <;> rfl

/-- States that differ in what moves. -/
structure States (D : String → Way) (s s' : State V) : Prop where
  W : Masks (moving D) s.W s'.W
  E : Envs D s.E s'.E
  plain : Plain s.E
  grows : Grows s.E

variable {s s' : State V} {g : Given V} {M : Math V}

theorem rules (D : String → Way) (W : Where.Env) : Rules (moving D) W := by
  constructor
  · intro p hp
    cases hp
  · intro p hp
    cases hp

theorem states_put (h : States D s s') {n : String} {a b : Arr (Option V)} {d : Option V}
    (hs : map Option.isSome b = map Option.isSome a)
    (hr : Items (Moved (D n)) (map (fill d) a) (map (fill d) b)) : States D (s.put n a d) (s'.put n b d) := by
  refine ⟨?_, ?_, Linear.plain_put h.plain n a d, h.grows⟩
  · refine ⟨h.W.dims, h.W.coords, h.W.config, h.W.matrix, h.W.arith, ?_, h.W.number, h.W.sums, h.W.signs, h.W.plain⟩
    simp only [State.put, hs, h.W.result]
  · refine ⟨h.E.coords, h.E.isDim, h.E.lookup, h.E.carrier, h.E.period, h.E.op, h.E.neg, h.E.truthy, ?_⟩
    intro m
    simp only [State.put]
    by_cases hm : m = n
    · subst hm
      simp only [if_true]
      exact .inr ⟨⟨a, d⟩, ⟨b, d⟩, rfl, rfl, hr⟩
    · simp only [hm, if_false]
      exact h.E.comp m

/-- The bounds of an item move apart. -/
inductive MovedLimits : Option (Limits V) → Option (Limits V) → Prop where
  | missing : MovedLimits none none
  | present {a b a' b' : Option V} : Moved .down a a' → Moved .up b b' → MovedLimits (some ⟨a, b⟩) (some ⟨a', b'⟩)

theorem boundArr_rel (h : Envs D E E') {w : Way} (hw : w = .up ∨ w = .down) {b : Bound V} (hb : boundOk D w b = true) :
    Both (Items (Moved w)) (boundArr E b) (boundArr E' b) := by
  cases b with
  | num v =>
    refine ⟨rfl, fun _ => ?_⟩
    simp only [scalar]
    rcases hw with rfl | rfl
    · exact .present (le_refl v)
    · exact .present (le_refl v)
  | unbounded => exact ⟨rfl, fun _ => .missing⟩
  | input n =>
    rcases h.comp n with ⟨e1, e2⟩ | ⟨a, b, e1, e2, hr⟩
    · simp only [boundArr, e1, e2]; exact rfl
    · simp only [boundArr, e1, e2]
      exact hr.mono fun x y hx => hx.fits hb

theorem buildVariable_rel (h : States D s s') {v : Variable V} (hv : variableOk D v = true) :
    Both (Items MovedLimits) (buildVariable s.W s.E v) (buildVariable s'.W s'.E v) := by
  simp only [variableOk, Bool.and_eq_true] at hv
  obtain ⟨⟨⟨hv, _⟩, hl⟩, hu⟩ := hv
  simp only [buildVariable, variableMask, Units.topLevel_same h.W v.foreach v.top hv, h.W.coords]
  cases Where.topLevel s.W v.foreach v.top with
  | error x => exact rfl
  | ok m =>
    simp only
    split
    · rcases (boundArr_rel h.E (.inr rfl) hl).cases with ⟨x, e1, e2⟩ | ⟨a, b, e1, e2, h1⟩
      · simp only [e1, e2]; exact rfl
      · simp only [e1, e2]
        rcases (boundArr_rel h.E (.inl rfl) hu).cases with ⟨x, e1, e2⟩ | ⟨a', b', e1, e2, h2⟩
        · simp only [e1, e2]; exact rfl
        · simp only [e1, e2]
          obtain ⟨ad, av⟩ := a
          obtain ⟨bd, bv⟩ := b
          obtain ⟨ad', av'⟩ := a'
          obtain ⟨bd', bv'⟩ := b'
          obtain ⟨d1, v1⟩ := h1
          obtain ⟨d2, v2⟩ := h2
          simp only at d1 d2 v1 v2
          subst d1 d2
          refine ⟨rfl, fun x => ?_⟩
          simp only [zip]
          rcases Bool.eq_false_or_eq_true (m.val (pick (joinDims m.dims (joinDims bd bd')) x m.dims)) with hm | hm
          · simp only [hm, if_true]
            exact .present (v1 _) (v2 _)
          · simp only [hm, Bool.false_eq_true, if_false]
            exact .missing
    · exact ⟨rfl, fun _ => .missing⟩

theorem moved_self {j : Way} {a : Option V} (h0 : ∀ v, a = some v → Goes j v v) : Moved j a a := by
  cases a with
  | none => exact .missing
  | some v => exact .present (h0 v rfl)

/-- The values of the items of a variable. -/
theorem valued_rel {j : Way} (x : List Label → V) (h0 : ∀ c, Goes j (x c) (x c))
    {b b' : Arr (Option (Limits V))} (h : Items MovedLimits b b') : Items (Moved j) (valued x b) (valued x b') := by
  refine ⟨h.1, fun c => ?_⟩
  have := h.2 c
  simp only [valued]
  generalize b.val c = p at this ⊢
  generalize b'.val c = q at this ⊢
  cases this with
  | missing => exact .missing
  | present _ _ => exact .present (h0 c)

theorem fill_rel {j : Way} {d x y : Option V} (hd : ∀ v, d = some v → Goes j v v) (h : Moved j x y) :
    Moved j (fill d x) (fill d y) := by
  cases h with
  | missing => exact moved_self hd
  | present h => exact .present h

theorem addVariable_rel (h : States D s s') (hg : Signed D g) {v : Variable V} (hv : variableOk D v = true) :
    Both (States D) (addVariable g s v) (addVariable g s' v) := by
  have hb := buildVariable_rel h hv
  simp only [addVariable]
  rcases hb.cases with ⟨e, e1, e2⟩ | ⟨b, b', e1, e2, hb⟩
  · simp only [e1, e2]; exact rfl
  · simp only [e1, e2]
    have hr := valued_rel (j := D v.name) (g.x v.name) (hg.x v.name) hb
    refine states_put h (items_isSome (fun x y hxy => hxy.some) hr) ?_
    exact hr.map2 fun x y hxy => fill_rel (fun d hd => hg.default v.name d hd) hxy

theorem buildExpression_rel (h : States D s s') (enum : List String → List String) {c : Component V} {j : Way}
    (hp : steady D c = true) (hj : ∀ e ∈ c.defn.equations, expressionOk D (subWay D c.defn.subs) j e.2 = true) :
    Both (Items (Moved j)) (buildExpression s.W s.E enum c) (buildExpression s'.W s'.E enum c) :=
  Units.build_rel (.missing) (fun _ _ hx => hx.some) h.W (rules D _) enum c hp fun _ he _ m =>
    setExpression_rel h.E h.plain h.grows hj he m

theorem buildConstraint_rel (h : States D s s') (enum : List String → List String) {c : Component V}
    (hp : steady D c = true) (hj : ∀ e ∈ c.defn.equations, constraintOk D (subWay D c.defn.subs) e.2 = true) :
    Both (Items MovedCell) (buildConstraint s.W s.E enum c) (buildConstraint s'.W s'.E enum c) :=
  Units.build_rel .missing (fun _ _ hx => hx.some) h.W (rules D _) enum c hp fun _ he _ m =>
    setConstraint_rel h.E h.plain h.grows hj he m

theorem addGlobal_rel (h : States D s s') (hg : Signed D g) {c : Component V} (hp : steady D c = true)
    (hj : ∀ e ∈ c.defn.equations, expressionOk D (subWay D c.defn.subs) (D c.defn.name) e.2 = true) :
    Both (States D) (addGlobal g s c) (addGlobal g s' c) := by
  simp only [addGlobal]
  rcases (buildExpression_rel h g.enum hp hj).cases with ⟨y, e1, e2⟩ | ⟨a, b, e1, e2, hr⟩
  · simp only [e1, e2]; exact rfl
  · simp only [e1, e2]
    refine states_put h (items_isSome (fun x y hx => hx.some) hr) ?_
    exact hr.map2 fun x y hxy => fill_rel (fun d hd => hg.default _ d hd) hxy

theorem addAll_rel {α : Type} {add : State V → α → Except Err (State V)} : ∀ (l : List α) {s s' : State V},
    States D s s' → (∀ a ∈ l, ∀ x x' : State V, States D x x' → Both (States D) (add x a) (add x' a)) →
    Both (States D) (addAll add s l) (addAll add s' l)
  | [], _, _, h, _ => h
  | a :: l, s, s', h, hf => by
    simp only [addAll]
    rcases (hf a List.mem_cons_self _ _ h).cases with ⟨y, e1, e2⟩ | ⟨x, x', e1, e2, hr⟩
    · simp only [e1, e2]; exact rfl
    · simp only [e1, e2]
      exact addAll_rel l hr fun b hb => hf b (List.mem_cons_of_mem _ hb)

theorem states_start (hE : Plain s.E) (hG : Grows s.E) (hs : Looser D s s') : States D s s' := by
  refine ⟨⟨hs.dims, hs.coords, hs.config, hs.matrix, hs.arith, hs.result, hs.number, hs.sums, hs.signs, ?_⟩,
    ⟨hs.ecoords, hs.isDim, hs.lookup, hs.carrier, hs.period, hs.op, hs.neg, hs.truthy, ?_⟩, hE, hG⟩
  · intro n hn
    refine hs.plain n ?_
    simp only [moving] at hn
    split at hn
    · assumption
    · cases hn
  · intro n
    rcases hs.comp n with h | ⟨c, c', e1, e2, hd, hv⟩
    · exact .inl h
    · refine .inr ⟨c, c', e1, e2, hd, fun x => ?_⟩
      have hf : ∀ d v : Option V, fill d v = v.or d := by
        intro d v
        cases v <;> simp [fill]
      simp only [map, hf]
      exact hv x

theorem assemble_rel (hM : Loosens D M) (hE : Plain s.E) (hG : Grows s.E) (hs : Looser D s s') (hg : Signed D g) :
    Both (fun P P' => Along (fun _ => Items MovedCell) M.constraints P.constraints P'.constraints ∧
      Along (fun _ => Items (Moved .down)) M.objectives P.objectives P'.objectives)
      (assemble g M s) (assemble g M s') := by
  simp only [assemble]
  rcases (addAll_rel (add := addVariable g) M.vars (states_start hE hG hs)
    fun v hv _ _ h => addVariable_rel h hg (hM.vars v hv)).cases with ⟨y, e1, e2⟩ | ⟨a, a', e1, e2, h1⟩
  · simp only [e1, e2]; exact rfl
  simp only [e1, e2]
  rcases (addAll_rel (add := addGlobal g) M.globals h1
    fun c hc _ _ h => addGlobal_rel h hg (hM.globals c hc).1 (hM.globals c hc).2).cases with
    ⟨y, e1, e2⟩ | ⟨b, b', e1, e2, h2⟩
  · simp only [e1, e2]; exact rfl
  simp only [e1, e2]
  rcases (Units.keepAll_rel (T := fun _ => Items MovedCell) M.constraints fun c hc =>
    buildConstraint_rel h2 g.enum (hM.constraints c hc).1 (hM.constraints c hc).2).cases with
    ⟨y, e1, e2⟩ | ⟨c, c', e1, e2, h3⟩
  · simp only [e1, e2]; exact rfl
  simp only [e1, e2]
  rcases (Units.keepAll_rel (T := fun _ => Items (Moved .down)) M.objectives fun c hc =>
    buildExpression_rel h2 g.enum (hM.objectives c hc).1 (hM.objectives c hc).2).cases with
    ⟨y, e1, e2⟩ | ⟨d, d', e1, e2, h4⟩
  · simp only [e1, e2]; exact rfl
  simp only [e1, e2]
  exact ⟨h3, h4⟩

end Loosen
end Calliope
