import Verif.Proofs.Measure
import Verif.Proofs.MeasureWhere

/-!
# Problems in other units
-/

namespace Calliope
namespace Units

open Grid Expr Build BaseMath Assemble Expand
open Linear (Plain)

variable {V : Type} [Field V] [DecidableEq V] {k : Change V} {U : System} {E E' : Expr.Env V} {W W' : Where.Env}

/-! ### Equations -/

/-- The parts of an expanded equation are among those of its component. -/
structure Among (c : Component V) (e : Equation V Cond) : Prop where
  body : ∃ w, (w, e.body) ∈ c.defn.equations ∧ w ∈ e.wheres
  subs : ∀ n s, e.subs.lookup n = some s → ∃ l w, (n, l) ∈ c.defn.subs ∧ (w, s) ∈ l ∧ w ∈ e.wheres
  wheres : ∀ t ∈ e.wheres, t ∈ conditions c

omit [Field V] [DecidableEq V] in
theorem among {c : Component V} {enum : List String → List String} {es : List (Equation V Cond)}
    (hp : parseEquations enum c.defn = .ok es) {e : Equation V Cond} (he : e ∈ es) : Among c e := by
  obtain ⟨i, w, body, hi, cs, hcs, ss, hss, hb, _, hw, hs, hl⟩ := (C44_product hp e).1 he
  have hmem := List.mem_of_getElem? hi
  refine ⟨⟨w, hb ▸ hmem, hw ▸ List.mem_cons_self⟩, ?_, ?_⟩
  · intro n s hn
    rw [hs] at hn
    obtain ⟨a, ha, hf⟩ := lookup_map_mem hn
    obtain ⟨l, v, hl, hx, hu⟩ := hcs.2 a ha
    obtain ⟨rfl, rfl⟩ := Prod.mk.inj hf
    refine ⟨l, v, lookup_mem hl, List.mem_of_getElem? hx, ?_⟩
    rw [hw]
    exact List.mem_cons_of_mem _ (List.mem_append_left _ (List.mem_flatMap.2 ⟨a, ha, hu ▸ List.mem_cons_self⟩))
  · intro t ht
    rw [hw] at ht
    simp only [List.mem_cons, List.mem_append, List.mem_flatMap] at ht
    simp only [conditions, List.mem_cons, List.mem_append, List.mem_flatMap, List.mem_map]
    rcases ht with rfl | ⟨a, ha, hta⟩ | ⟨a, ha, hta⟩
    · exact .inr (.inl (.inl ⟨_, hmem, rfl⟩))
    · obtain ⟨l, u, hl, hx, hu⟩ := hcs.2 a ha
      rw [hu, List.mem_singleton] at hta
      subst hta
      exact .inr (.inl (.inr ⟨_, lookup_mem hl, _, List.mem_of_getElem? hx, rfl⟩))
    · obtain ⟨l, u, hl, hx, hu⟩ := hss.2 a ha
      rw [hu, List.mem_singleton] at hta
      subst hta
      exact .inr (.inr ⟨_, lookup_mem hl, _, List.mem_of_getElem? hx, rfl⟩)

theorem evalSide_rel (hk : Nonzero k) (h : Envs k U E E') (hE : Plain E) {c : Component V} {e : Equation V Cond}
    (he : Among c e) (hx : ∀ t ∈ e.wheres, U.excluded t = false) (m : Arr Bool) (x : Ex V) {j : Kind}
    (hj : kind U (subKind U c.defn.subs) x = some j) :
    Both (Items (Rel k j)) (evalSide E (fun n => e.slices.lookup n) (fun n => e.subs.lookup n) m x)
      (evalSide E' (fun n => e.slices.lookup n) (fun n => e.subs.lookup n) m x) := by
  refine evalEx_rel hk h hE ?_ x m j hj
  intro w n i hi
  simp only [evalSub]
  cases hs : e.subs.lookup n with
  | none => exact rfl
  | some s =>
    obtain ⟨l, v, hl, hm, hv⟩ := he.subs n s hs
    obtain ⟨i', hi', hf⟩ := joinAll_fits hi (kind U (fun _ => none) s) (List.mem_map.2 ⟨(v, s), List.mem_filter.2
      ⟨List.mem_flatMap.2 ⟨(n, l), List.mem_filter.2 ⟨hl, by simp⟩, hm⟩, by simp [hx v hv]⟩, rfl⟩)
    refine (evalEx_rel (j := i') hk h hE ?_ s w hi').mono fun a b hr => hr.mono fun x y hxy => hxy.fits hf
    intro _ _ _ h0
    cases h0

omit [DecidableEq V] in
theorem checkWhere_same (hc : E'.coords = E.coords) (w : Arr Bool) {a b : Arr (Option V)}
    (hd : b.dims = a.dims) (hs : ∀ x, (b.val x).isSome = (a.val x).isSome) : checkWhere E' w b = checkWhere E w a := by
  have : zip (fun v m => v.isNone && m) b w = zip (fun v m => v.isNone && m) a w := by
    simp only [zip, hd, Arr.mk.injEq, true_and]
    funext x
    have := hs (pick (joinDims a.dims w.dims) x a.dims)
    cases h1 : a.val (pick (joinDims a.dims w.dims) x a.dims) <;>
      cases h2 : b.val (pick (joinDims a.dims w.dims) x a.dims) <;> simp_all
  simp only [checkWhere, hd, hc, this]

theorem equation_mem {c : Component V} {e : Equation V Cond} (he : Among c e)
    (hx : ∀ t ∈ e.wheres, U.excluded t = false) : bodyKind U (subKind U c.defn.subs) e.body ∈ equationKinds U c := by
  obtain ⟨w, hw, hm⟩ := he.body
  exact List.mem_map.2 ⟨_, List.mem_filter.2 ⟨hw, by simp [hx w hm]⟩, rfl⟩

theorem setExpression_rel (hk : Nonzero k) (h : Envs k U E E') (hE : Plain E) {c : Component V} {j : Kind}
    (hj : ∀ x ∈ equationKinds U c, ∃ i, x = some i ∧ Fits i j) {e : Equation V Cond} (he : Among c e)
    (hx : ∀ t ∈ e.wheres, U.excluded t = false) (m : Arr Bool) :
    Both (Items (Rel k j)) (setExpression E e m) (setExpression E' e m) := by
  obtain ⟨i, hi, hf⟩ := hj _ (equation_mem he hx)
  refine Both.mono (T := Items (Rel k i)) ?_ fun a b hr => hr.mono fun x y hxy => hxy.fits hf
  simp only [setExpression]
  cases hb : e.body with
  | cmp _ _ _ => exact rfl
  | arith x =>
    rw [hb] at hi
    simp only [bodyKind] at hi
    simp only [evalExpression]
    rcases (evalSide_rel hk h hE he hx m x hi).cases with ⟨y, e1, e2⟩ | ⟨a, b, e1, e2, hr⟩
    · simp only [e1, e2]; exact rfl
    · simp only [e1, e2]
      rw [checkWhere_same h.coords m hr.1 (fun x => (hr.2 x).some)]
      cases checkWhere E m a with
      | error y => exact rfl
      | ok _ => exact maskArr_rel m hr

/-- The unit of a quantity. -/
def unitOf : Kind → Measure
  | .of m => m
  | .zero => .one

omit [DecidableEq V] in
theorem Rel.scaled {j : Kind} {a b : Option V} (h : Rel k j a b) : Scaled (k.factor (unitOf j)) a b := by
  cases j with
  | zero => exact h.zero (.of .one)
  | of m => exact h

theorem setConstraint_rel (hk : Nonzero k) (h : Envs k U E E') (hE : Plain E) {c : Component V}
    (hj : ∀ x ∈ equationKinds U c, x ≠ none) {e : Equation V Cond} (he : Among c e)
    (hx : ∀ t ∈ e.wheres, U.excluded t = false) (m : Arr Bool) :
    Both (Items (ScaledCell k)) (setConstraint E e m) (setConstraint E' e m) := by
  obtain ⟨i, hi⟩ := Option.ne_none_iff_exists'.1 (hj _ (equation_mem he hx))
  simp only [setConstraint]
  cases hb : e.body with
  | arith _ => exact rfl
  | cmp l o r =>
    rw [hb] at hi
    simp only [bodyKind] at hi
    obtain ⟨jl, hl, fl⟩ := joinAll_fits hi _ List.mem_cons_self
    obtain ⟨jr, hr, fr⟩ := joinAll_fits hi _ (List.mem_cons_of_mem _ List.mem_cons_self)
    simp only [evalComparison]
    rcases (evalSide_rel hk h hE he hx m l hl).cases with ⟨y, e1, e2⟩ | ⟨a, b, e1, e2, h1⟩
    · simp only [e1, e2]; exact rfl
    · simp only [e1, e2]
      rcases (evalSide_rel hk h hE he hx m r hr).cases with ⟨y, e1, e2⟩ | ⟨a', b', e1, e2, h2⟩
      · simp only [e1, e2]; exact rfl
      · simp only [e1, e2, h1.1, h2.1]
        split_ifs
        · refine ⟨rfl, fun x => ?_⟩
          simp only [map]
          split_ifs
          · exact .present o (unitOf i) ((h1.2 _).fits fl).scaled ((h2.2 _).fits fr).scaled
          · exact .missing
        · exact rfl
        · exact rfl

/-! ### Components -/

omit [DecidableEq V] in
theorem ScaledCell.some {a b : Option (Cell V)} (h : ScaledCell k a b) : b.isSome = a.isSome := by
  cases h <;> rfl

omit [Field V] [DecidableEq V] in
theorem buildLoop_rel {R : Type} {T : Option R → Option R → Prop}
    (hT : ∀ x y, T x y → y.isSome = x.isSome) (hc : W'.coords = W.coords) (c : Component V)
    {f f' : Equation V Cond → Arr Bool → Except Err (Arr (Option R))} : ∀ (es : List (Equation V Cond))
    {a b : Arr (Option R)}, (∀ e ∈ es, Where.equationMask W' c.foreach c.top e.wheres =
      Where.equationMask W c.foreach c.top e.wheres) →
    (∀ e ∈ es, ∀ m, Where.equationMask W c.foreach c.top e.wheres = .ok (some m) → Both (Items T) (f e m) (f' e m)) →
    Items T a b → Both (Items T) (buildLoop W c f a es) (buildLoop W' c f' b es)
  | [], _, _, _, _, h => h
  | e :: es, a, b, hw, hf, h => by
    have ih := fun {a b : Arr (Option R)} => buildLoop_rel hT hc c es (a := a) (b := b)
      (fun x hx => hw x (List.mem_cons_of_mem _ hx)) (fun x hx => hf x (List.mem_cons_of_mem _ hx))
    simp only [buildLoop, hw e List.mem_cons_self, hc]
    cases he : Where.equationMask W c.foreach c.top e.wheres with
    | error x => exact rfl
    | ok o =>
      cases o with
      | none => exact ih h
      | some m =>
        simp only [Linear.overlaps_same W.coords m h.1 (fun x => hT _ _ (h.2 x))]
        cases overlaps W.coords a m with
        | true => exact rfl
        | false =>
          simp only [Bool.false_eq_true, if_false]
          rcases (hf e List.mem_cons_self m he).cases with ⟨y, e1, e2⟩ | ⟨a', b', e1, e2, h'⟩
          · simp only [e1, e2]; exact rfl
          · simp only [e1, e2]
            refine ih (h.zip' h' ?_)
            intro x y x' y' hx hx'
            have hy := hT x y hx
            cases x with
            | none =>
              cases y with
              | some _ => simp at hy
              | none => exact hx'
            | some _ =>
              cases y with
              | none => simp at hy
              | some _ => exact hx

omit [Field V] [DecidableEq V] in
theorem build_rel {R : Type} {T : Option R → Option R → Prop} (hn : T none none)
    (hT : ∀ x y, T x y → y.isSome = x.isSome) (hW : Masks U W W') (hR : Rules U W) (enum : List String → List String)
    (c : Component V) (hp : (conditions c).all (plainCond U) = true)
    {f f' : Equation V Cond → Arr Bool → Except Err (Arr (Option R))}
    (hf : ∀ e, Among c e → (∀ t ∈ e.wheres, U.excluded t = false) → ∀ m, Both (Items T) (f e m) (f' e m)) :
    Both (Items T) (build W enum c f) (build W' enum c f') := by
  rw [List.all_eq_true] at hp
  have ht := hp c.top (by simp [conditions])
  simp only [build, topLevel_same hW c.foreach c.top ht, hW.coords]
  cases Where.topLevel W c.foreach c.top with
  | error x => exact rfl
  | ok m =>
    simp only
    cases anyCell W.coords m with
    | false => exact ⟨rfl, fun _ => hn⟩
    | true =>
      simp only [if_true]
      cases he : parseEquations enum c.defn with
      | error x => exact rfl
      | ok es =>
        refine buildLoop_rel hT hW.coords c es (fun e hm => ?_) (fun e hm m h => ?_) ⟨rfl, fun _ => hn⟩
        · exact equationMask_same hW _ _ _ ht fun t htm => hp t ((among he hm).wheres t htm)
        · exact hf e (among he hm) (equationMask_excluded hR h) m

/-! ### Problems -/

/-- States that differ in units. -/
structure States (k : Change V) (U : System) (s s' : State V) : Prop where
  W : Masks U s.W s'.W
  E : Envs k U s.E s'.E
  rules : Rules U s.W
  plain : Plain s.E

variable {s s' : State V} {g g' : Given V} {M : Math V}

omit [DecidableEq V] in
theorem states_put (h : States k U s s') {n : String} {a b : Arr (Option V)} {d d' : Option V}
    (hs : map Option.isSome b = map Option.isSome a)
    (hr : Items (Rel k (U.kind n)) (map (fill d) a) (map (fill d') b)) : States k U (s.put n a d) (s'.put n b d') := by
  refine ⟨?_, ?_, ⟨h.rules.absent, h.rules.off⟩, Linear.plain_put h.plain n a d⟩
  · refine ⟨h.W.dims, h.W.coords, h.W.config, h.W.matrix, h.W.arith, ?_, h.W.number, h.W.sums, h.W.signs, h.W.plain⟩
    simp only [State.put, hs, h.W.result]
  · refine ⟨h.E.coords, h.E.isDim, h.E.lookup, h.E.carrier, h.E.period, h.E.op, h.E.neg, h.E.truthy, ?_⟩
    intro m
    simp only [State.put]
    by_cases hm : m = n
    · subst hm
      simp only [if_true]
      exact .inr ⟨⟨a, d⟩, ⟨b, d'⟩, rfl, rfl, hr⟩
    · simp only [hm, if_false]
      exact h.E.comp m

/-- The bounds of an item, in other units. -/
inductive ScaledLimits (f : V) : Option (Limits V) → Option (Limits V) → Prop where
  | missing : ScaledLimits f none none
  | present {a b a' b' : Option V} : Scaled f a a' → Scaled f b b' → ScaledLimits f (some ⟨a, b⟩) (some ⟨a', b'⟩)

theorem boundArr_rel (h : Envs k U E E') {m : Measure} {b : Bound V} (hb : boundOk U m b = true) :
    Both (Items (Scaled (k.factor m))) (boundArr E b) (boundArr E' b) := by
  cases b with
  | num v =>
    simp only [boundOk, Bool.or_eq_true, decide_eq_true_eq] at hb
    refine ⟨rfl, fun _ => ?_⟩
    simp only [scalar]
    rcases hb with rfl | rfl
    · exact scaled' (by ring)
    · exact scaled' (by rw [factor_one]; ring)
  | unbounded => exact ⟨rfl, fun _ => .missing⟩
  | input n =>
    simp only [boundOk, Bool.or_eq_true, decide_eq_true_eq] at hb
    rcases h.comp n with ⟨e1, e2⟩ | ⟨a, b, e1, e2, hr⟩
    · simp only [boundArr, e1, e2]; exact rfl
    · simp only [boundArr, e1, e2]
      refine hr.mono fun x y hx => ?_
      rcases hb with hb | hb
      · rw [hb] at hx
        exact hx
      · rw [hb] at hx
        exact hx.zero (.of m)

/-- A variable that is not there. -/
theorem buildVariable_zero (h : States k U s s') {v : Variable V} (hv : plainCond U v.top = true)
    (hx : U.excluded v.top = true) : (∃ e, buildVariable s.W s.E v = .error e ∧ buildVariable s'.W s'.E v = .error e) ∨
      (buildVariable s.W s.E v = .ok (scalar none) ∧ buildVariable s'.W s'.E v = .ok (scalar none)) := by
  simp only [buildVariable, variableMask, topLevel_same h.W v.foreach v.top hv, h.W.coords]
  cases ht : Where.topLevel s.W v.foreach v.top with
  | error x => exact .inl ⟨x, rfl, rfl⟩
  | ok m =>
    simp only [topLevel_excluded h.rules hx ht]
    exact .inr ⟨rfl, rfl⟩

theorem buildVariable_rel (h : States k U s s') {v : Variable V} (hv : plainCond U v.top = true)
    (hl : boundOk U (U.of v.name) v.lower = true) (hu : boundOk U (U.of v.name) v.upper = true) :
    Both (Items (ScaledLimits (k.factor (U.of v.name)))) (buildVariable s.W s.E v) (buildVariable s'.W s'.E v) := by
  simp only [buildVariable, variableMask, topLevel_same h.W v.foreach v.top hv, h.W.coords]
  cases Where.topLevel s.W v.foreach v.top with
  | error x => exact rfl
  | ok m =>
    simp only
    split
    · rcases (boundArr_rel h.E hl).cases with ⟨x, e1, e2⟩ | ⟨a, b, e1, e2, h1⟩
      · simp only [e1, e2]; exact rfl
      · simp only [e1, e2]
        rcases (boundArr_rel h.E hu).cases with ⟨x, e1, e2⟩ | ⟨a', b', e1, e2, h2⟩
        · simp only [e1, e2]; exact rfl
        · simp only [e1, e2]
          obtain ⟨ad, av⟩ := a
          obtain ⟨bd, bv⟩ := b
          obtain ⟨ad', av'⟩ := a'
          obtain ⟨bd', bv'⟩ := b'
          obtain ⟨d1, v1⟩ := h1
          obtain ⟨d2, v2⟩ := h2
          simp only at d1 d2 v1 v2
          subst d1 d2
          refine ⟨rfl, fun x => ?_⟩
          simp only [zip]
          rcases Bool.eq_false_or_eq_true (m.val (pick (joinDims m.dims (joinDims bd bd')) x m.dims)) with hm | hm
          · simp only [hm, if_true]
            exact .present (v1 _) (v2 _)
          · simp only [hm, Bool.false_eq_true, if_false]
            exact .missing
    · exact ⟨rfl, fun _ => .missing⟩

theorem Items.map2 {R S : Type} {T : Option R → Option R → Prop} {T' : Option S → Option S → Prop} {a b : Arr (Option R)}
    (h : Items T a b) {f f' : Option R → Option S} (hf : ∀ x y, T x y → T' (f x) (f' y)) :
    Items T' (map f a) (map f' b) := ⟨h.1, fun x => hf _ _ (h.2 x)⟩

/-- The values of the items of a variable. -/
theorem valued_rel (f : V) (x : List Label → V) {b b' : Arr (Option (Limits V))} (h : Items (ScaledLimits f) b b') :
    Items (Scaled f) (valued x b) (valued (fun c => f * x c) b') := by
  refine ⟨h.1, fun c => ?_⟩
  have := h.2 c
  simp only [valued]
  generalize b.val c = p at this ⊢
  generalize b'.val c = q at this ⊢
  cases this with
  | missing => exact .missing
  | present _ _ => exact .present _

theorem fill_scaled {f : V} {d x y : Option V} (h : Scaled f x y) :
    Scaled f (fill d x) (fill (d.map (fun v => f * v)) y) := by
  cases h with
  | missing =>
    cases d with
    | none => exact .missing
    | some v => exact .present v
  | present a => exact .present a

theorem addVariable_rel (h : States k U s s') (hg : Regiven k U g g') (hz : ∀ n ∈ U.zero, g.default n = none ∨
    g.default n = some 0) {v : Variable V} (hv : variableOk U v = true) :
    Both (States k U) (addVariable g s v) (addVariable g' s' v) := by
  simp only [variableOk, Bool.and_eq_true] at hv
  obtain ⟨hp, hv⟩ := hv
  simp only [addVariable]
  split at hv
  · rename_i hm
    rcases buildVariable_zero h hp hv with ⟨e, e1, e2⟩ | ⟨e1, e2⟩
    · simp only [e1, e2]; exact rfl
    · simp only [e1, e2]
      refine states_put h rfl ⟨rfl, fun c => ?_⟩
      simp only [System.kind, hm, if_true, map, valued, scalar, Option.map_none, fill, hg.default]
      rcases hz v.name (by simpa using hm) with e | e
      · rw [e]
        exact rel_none .zero
      · rw [e]
        simp only [Option.map_some, mul_zero]
        exact ⟨rfl, .inr rfl⟩
  · rename_i hm
    simp only [Bool.and_eq_true] at hv
    rcases (buildVariable_rel h hp hv.1.1 hv.1.2).cases with ⟨e, e1, e2⟩ | ⟨b, b', e1, e2, hb⟩
    · simp only [e1, e2]; exact rfl
    · simp only [e1, e2]
      have hx : g'.x v.name = fun c => k.factor (U.of v.name) * g.x v.name c := funext (hg.x v.name)
      have hr := valued_rel (k.factor (U.of v.name)) (g.x v.name) hb
      rw [← hx] at hr
      refine states_put h (items_isSome (T := Scaled (k.factor (U.of v.name))) ?_ hr) ?_
      · intro x y hxy
        cases hxy <;> rfl
      · have hK : U.kind v.name = .of (U.of v.name) := by
          simp only [System.kind, hm]
          rfl
        rw [hK, hg.default]
        exact hr.map2 fun x y hxy => fill_scaled hxy

theorem buildExpression_rel (hk : Nonzero k) (h : States k U s s') (enum : List String → List String) {c : Component V}
    (hp : (conditions c).all (plainCond U) = true) {j : Kind}
    (hj : ∀ x ∈ equationKinds U c, ∃ i, x = some i ∧ Fits i j) :
    Both (Items (Rel k j)) (buildExpression s.W s.E enum c) (buildExpression s'.W s'.E enum c) :=
  build_rel (rel_none j) (fun _ _ hx => hx.some) h.W h.rules enum c hp fun _ he hx m =>
    setExpression_rel hk h.E h.plain hj he hx m

theorem buildConstraint_rel (hk : Nonzero k) (h : States k U s s') (enum : List String → List String) {c : Component V}
    (hc : componentOk U c = true) :
    Both (Items (ScaledCell k)) (buildConstraint s.W s.E enum c) (buildConstraint s'.W s'.E enum c) := by
  simp only [componentOk, Bool.and_eq_true, List.all_eq_true] at hc
  refine build_rel .missing (fun _ _ hx => hx.some) h.W h.rules enum c (List.all_eq_true.2 hc.1) fun _ he hx m =>
    setConstraint_rel hk h.E h.plain (fun x hx => ?_) he hx m
  have := hc.2 x hx
  intro e
  simp [e] at this

theorem fill_rel {j : Kind} (m : Measure) (hj : j = .zero ∨ j = .of m) {d x y : Option V} (hd : j = .zero → d = none ∨ d = some 0)
    (h : Rel k j x y) : Rel k j (fill d x) (fill (d.map (fun v => k.factor m * v)) y) := by
  rcases hj with rfl | rfl
  · obtain ⟨rfl, rfl | rfl⟩ := h
    · rcases hd rfl with rfl | rfl
      · exact rel_none .zero
      · simp only [fill, Option.map_some, mul_zero]
        exact ⟨rfl, .inr rfl⟩
    · exact ⟨rfl, .inr rfl⟩
  · exact fill_scaled h

theorem addGlobal_rel (hk : Nonzero k) (h : States k U s s') (hg : Regiven k U g g') (hz : ∀ n ∈ U.zero, g.default n = none ∨
    g.default n = some 0) {c : Component V} (hc : globalOk U c = true) :
    Both (States k U) (addGlobal g s c) (addGlobal g' s' c) := by
  simp only [globalOk, componentOk, Bool.and_eq_true] at hc
  have hj : ∀ x ∈ equationKinds U c, ∃ i, x = some i ∧ Fits i (U.kind c.defn.name) := by
    intro x hx
    have := List.all_eq_true.1 hc.2 x hx
    simp only [Bool.or_eq_true, decide_eq_true_eq] at this
    rcases this with e | e
    · exact ⟨_, e, .inl rfl⟩
    · exact ⟨_, e, .inr rfl⟩
  simp only [addGlobal, hg.enum]
  rcases (buildExpression_rel hk h g.enum hc.1.1 hj).cases with ⟨y, e1, e2⟩ | ⟨a, b, e1, e2, hr⟩
  · simp only [e1, e2]; exact rfl
  · simp only [e1, e2]
    refine states_put h (items_isSome (T := Rel k (U.kind c.defn.name)) (fun x y hx => hx.some) hr) ?_
    rw [hg.default]
    refine hr.map2 fun x y hxy => fill_rel (U.of c.defn.name) ?_ ?_ hxy
    · simp only [System.kind]
      split
      · exact .inl rfl
      · exact .inr rfl
    · intro e
      simp only [System.kind] at e
      split at e
      · rename_i hm
        exact hz _ (by simpa using hm)
      · cases e

omit [DecidableEq V] in
theorem addAll_rel {α : Type} {add add' : State V → α → Except Err (State V)} : ∀ (l : List α) {s s' : State V},
    States k U s s' → (∀ a ∈ l, ∀ x x' : State V, States k U x x' → Both (States k U) (add x a) (add' x' a)) →
    Both (States k U) (addAll add s l) (addAll add' s' l)
  | [], _, _, h, _ => h
  | a :: l, s, s', h, hf => by
    simp only [addAll]
    rcases (hf a List.mem_cons_self _ _ h).cases with ⟨y, e1, e2⟩ | ⟨x, x', e1, e2, hr⟩
    · simp only [e1, e2]; exact rfl
    · simp only [e1, e2]
      exact addAll_rel l hr fun b hb => hf b (List.mem_cons_of_mem _ hb)

/-- Lists with as many items as definitions, item by item. -/
def Along {α β : Type} (T : α → β → β → Prop) (cs : List α) (l l' : List β) : Prop :=
  l.length = cs.length ∧ l'.length = cs.length ∧
    ∀ (i : Nat) (c : α) (a b : β), cs[i]? = some c → l[i]? = some a → l'[i]? = some b → T c a b

omit [Field V] [DecidableEq V] in
theorem keepAll_rel {α β : Type} {T : α → β → β → Prop} {f f' : α → Except Err β} : ∀ (l : List α),
    (∀ a ∈ l, Both (T a) (f a) (f' a)) → Both (Along T l) (keepAll f l) (keepAll f' l)
  | [], _ => ⟨rfl, rfl, by simp⟩
  | a :: l, h => by
    simp only [keepAll]
    rcases (h a List.mem_cons_self).cases with ⟨y, e1, e2⟩ | ⟨x, x', e1, e2, hr⟩
    · simp only [e1, e2]; exact rfl
    · simp only [e1, e2]
      rcases (keepAll_rel l fun b hb => h b (List.mem_cons_of_mem _ hb)).cases with
        ⟨y, e1, e2⟩ | ⟨z, z', e1, e2, h1, h2, h3⟩
      · simp only [e1, e2]; exact rfl
      · simp only [e1, e2]
        refine ⟨by simp [h1], by simp [h2], ?_⟩
        intro i c p q hc hp hq
        cases i with
        | zero =>
          simp only [List.getElem?_cons_zero, Option.some.injEq] at hc hp hq
          exact hc ▸ hp ▸ hq ▸ hr
        | succ i => exact h3 i c p q (by simpa using hc) (by simpa using hp) (by simpa using hq)

omit [DecidableEq V] in
theorem states_start (hU : Applies U g s) (hE : Plain s.E) (hs : Rescaled k U s s') : States k U s s' := by
  refine ⟨⟨hs.dims, hs.coords, hs.config, hs.matrix, hs.arith, hs.result, hs.number, hs.sums, hs.signs, hs.plain⟩,
    ⟨hs.ecoords, hs.isDim, hs.lookup, hs.carrier, hs.period, hs.op, hs.neg, hs.truthy, ?_⟩, ⟨hU.absent, hU.off⟩, hE⟩
  intro n
  rcases hs.comp n with h | ⟨c, c', e1, e2, hd, hv⟩
  · exact .inl h
  · refine .inr ⟨c, c', e1, e2, hd, fun x => ?_⟩
    have hK : U.kind n = .of (U.of n) := by
      simp only [System.kind]
      split
      · rename_i hm
        have := (hU.zero n (by simpa using hm)).1
        rw [e1] at this
        cases this
      · rfl
    rw [hK]
    have hf : ∀ d v : Option V, fill d v = v.or d := by
      intro d v
      cases v <;> simp [fill]
    simp only [map, hf]
    exact hv x

theorem assemble_rel (hk : Nonzero k) (hM : Consistent U M) (hU : Applies U g s) (hE : Plain s.E) (hs : Rescaled k U s s')
    (hg : Regiven k U g g') :
    Both (fun P P' => Along (fun _ => Items (ScaledCell k)) M.constraints P.constraints P'.constraints ∧
      Along (fun c => Items (Scaled (k.factor (objectiveUnit U c)))) M.objectives P.objectives P'.objectives)
      (assemble g M s) (assemble g' M s') := by
  have hz : ∀ n ∈ U.zero, g.default n = none ∨ g.default n = some 0 := fun n hn => (hU.zero n hn).2
  simp only [assemble, hg.enum]
  rcases (addAll_rel (add := addVariable g) (add' := addVariable g') M.vars (states_start hU hE hs)
    fun v hv _ _ h => addVariable_rel h hg hz (hM.vars v hv)).cases with
    ⟨y, e1, e2⟩ | ⟨a, a', e1, e2, h1⟩
  · simp only [e1, e2]; exact rfl
  simp only [e1, e2]
  rcases (addAll_rel (add := addGlobal g) (add' := addGlobal g') M.globals h1
    fun c hc _ _ h => addGlobal_rel hk h hg hz (hM.globals c hc)).cases with
    ⟨y, e1, e2⟩ | ⟨b, b', e1, e2, h2⟩
  · simp only [e1, e2]; exact rfl
  simp only [e1, e2]
  rcases (keepAll_rel (T := fun _ => Items (ScaledCell k)) M.constraints fun c hc =>
    buildConstraint_rel hk h2 g.enum (hM.constraints c hc)).cases with ⟨y, e1, e2⟩ | ⟨c, c', e1, e2, h3⟩
  · simp only [e1, e2]; exact rfl
  simp only [e1, e2]
  have ho : ∀ c ∈ M.objectives, Both (Items (Scaled (k.factor (objectiveUnit U c)))) (buildExpression b.W b.E g.enum c)
      (buildExpression b'.W b'.E g.enum c) := by
    intro c hc
    have h := hM.objectives c hc
    simp only [objectiveOk, componentOk, Bool.and_eq_true] at h
    obtain ⟨j, hj⟩ := Option.isSome_iff_exists.1 h.2
    have := buildExpression_rel hk h2 g.enum h.1.1 (joinAll_fits hj)
    simp only [objectiveUnit, hj]
    refine this.mono fun x y hxy => hxy.mono fun x y hxy => ?_
    cases j with
    | zero => exact hxy.zero (.of .one)
    | of m => exact hxy
  rcases (keepAll_rel M.objectives ho).cases with ⟨y, e1, e2⟩ | ⟨d, d', e1, e2, h4⟩
  · simp only [e1, e2]; exact rfl
  simp only [e1, e2]
  exact ⟨h3, h4⟩

end Units
end Calliope
