import Verif.Props.Expand
import Verif.Spec.Assemble

/-!
# Proofs: what a component depends on
-/

namespace Calliope
namespace Assemble

open Grid Expr Build BaseMath Infix Expand

variable {V : Type}

/-- None of the names changes. -/
def Clear (S : String → Prop) (l : List String) : Prop := ∀ n ∈ l, ¬S n

theorem Clear.left {S : String → Prop} {a b : List String} (h : Clear S (a ++ b)) : Clear S a :=
  fun n hn => h n (List.mem_append_left _ hn)

theorem Clear.right {S : String → Prop} {a b : List String} (h : Clear S (a ++ b)) : Clear S b :=
  fun n hn => h n (List.mem_append_right _ hn)

theorem Clear.head {S : String → Prop} {a : String} {b : List String} (h : Clear S (a :: b)) : ¬S a :=
  h a List.mem_cons_self

theorem Clear.tail {S : String → Prop} {a : String} {b : List String} (h : Clear S (a :: b)) : Clear S b :=
  fun n hn => h n (List.mem_cons_of_mem _ hn)

variable {S : String → Prop} {s s' : State V}

/-! ### Expressions -/

theorem compArr_frame (h : SameBut S s s') {n : String} (hn : ¬S n) : compArr s.E n = compArr s'.E n := by
  simp only [compArr, h.comp n hn, h.isDim]

theorem lookups_frame (h : SameBut S s s') : ∀ (ls : List (String × String)), Clear S (ls.map Prod.snd) →
    lookups s.E ls = lookups s'.E ls
  | [], _ => rfl
  | (d, n) :: rest, hn => by
    simp only [List.map_cons] at hn
    simp only [lookups, h.lookup n hn.head, lookups_frame h rest hn.tail]

theorem sliceArr_frame (h : SameBut S s s') {slices : String → Option SliceDef}
    (hs : ∀ n d, slices n = some d → Clear S (SliceNames d)) (x : Slicer) :
    sliceArr s.E slices x = sliceArr s'.E slices x := by
  cases x with
  | label l => rfl
  | ref n =>
    simp only [sliceArr]
    cases hd : slices n with
    | none => rfl
    | some d =>
      cases d with
      | label l => rfl
      | valAt d i => simp only [h.ecoords]
      | lookup m shifts =>
        have : ¬S m := hs n _ hd m (by simp [SliceNames])
        simp only [h.lookup m this, h.ecoords]

theorem sliceArrs_frame (h : SameBut S s s') {slices : String → Option SliceDef}
    (hs : ∀ n d, slices n = some d → Clear S (SliceNames d)) : ∀ (l : List (String × Slicer)),
    sliceArrs s.E slices l = sliceArrs s'.E slices l
  | [] => rfl
  | (d, x) :: rest => by simp only [sliceArrs, sliceArr_frame h hs x, sliceArrs_frame h hs rest]

theorem selAll_frame (h : SameBut S s s') {slices : String → Option SliceDef}
    (hs : ∀ n d, slices n = some d → Clear S (SliceNames d)) (a : Arr (Option V)) (l : List (String × Slicer)) :
    selAll s.E slices a l = selAll s'.E slices a l := by
  simp only [selAll, sliceArrs_frame h hs l, h.ecoords]

theorem condArr_frame (h : SameBut S s s') (a c : Arr (Option V)) : condArr s.E a c = condArr s'.E a c := by
  have : holds s.E = holds s'.E := by
    funext x
    simp only [holds, h.truthy]
  simp only [condArr, this]

/-! ### Conditions -/

theorem evalLhs_frame (h : SameBut S s s') : ∀ (l : Where.Lhs), Clear S (LhsNames l) →
    Where.evalLhs s.W l = Where.evalLhs s'.W l
  | .num _, _ => by simp only [Where.evalLhs]
  | .dim d, _ => by simp only [Where.evalLhs, h.dims]
  | .input p, hn => by
    simp only [LhsNames] at hn
    simp only [Where.evalLhs, h.input p hn.head]
  | .config o, _ => by simp only [Where.evalLhs, h.config]
  | .valAt d i, _ => by simp only [Where.evalLhs, Where.valAt, h.dims, h.coords]
  | .op o l r, hn => by
    simp only [LhsNames] at hn
    simp only [Where.evalLhs, evalLhs_frame h l hn.left, evalLhs_frame h r hn.right, h.arith]
  | .result n, hn => by
    simp only [LhsNames] at hn
    simp only [Where.evalLhs, h.number n hn.head]
  | .total n over, hn => by
    simp only [LhsNames] at hn
    simp only [Where.evalLhs, h.sums n hn.head]

theorem evalRhs_frame (h : SameBut S s s') (r : Where.Rhs) : Where.evalRhs s.W r = Where.evalRhs s'.W r := by
  cases r <;> simp only [Where.evalRhs, Where.valAt, h.dims, h.coords]

theorem evalLeaf_frame (h : SameBut S s s') (l : Where.Leaf) (hn : Clear S (LeafNames l)) :
    Where.evalLeaf s.W l = Where.evalLeaf s'.W l := by
  cases l with
  | bool b => rfl
  | input p =>
    simp only [LeafNames] at hn
    simp only [Where.evalLeaf, h.input p hn.head]
  | result r =>
    simp only [LeafNames] at hn
    simp only [Where.evalLeaf, h.result r hn.head]
  | cmp l o r =>
    simp only [LeafNames] at hn
    simp only [Where.evalLeaf, evalLhs_frame h l hn, evalRhs_frame h r, h.coords]
  | isIn items d => simp only [Where.evalLeaf, h.dims]
  | anyInput p over =>
    simp only [LeafNames] at hn
    simp only [Where.evalLeaf, h.input p hn.head, h.coords]
  | anyResult r over =>
    simp only [LeafNames] at hn
    simp only [Where.evalLeaf, h.result r hn.head, h.coords]
  | defined sel within how => simp only [Where.evalLeaf, Where.evalDefined, h.matrix, h.coords]

mutual
theorem evalTree_frame (h : SameBut S s s') : ∀ (t : Tree Where.Op Where.Leaf), Clear S (CondNames t) →
    Where.evalTree s.W t = Where.evalTree s'.W t
  | .atom l, hn => by
    simp only [CondNames] at hn
    simp only [Where.evalTree, evalLeaf_frame h l hn]
  | .pre o t, hn => by
    simp only [CondNames] at hn
    simp only [Where.evalTree, evalTree_frame h t hn]
  | .chain t r, hn => by
    simp only [CondNames] at hn
    simp only [Where.evalTree, evalTree_frame h t hn.left]
    cases Where.evalTree s'.W t with
    | error x => rfl
    | ok a => exact evalTreeRest_frame h r a hn.right
theorem evalTreeRest_frame (h : SameBut S s s') : ∀ (r : Rest Where.Op Where.Leaf) (acc : Arr Bool),
    Clear S (CondRestNames r) → Where.evalRest s.W acc r = Where.evalRest s'.W acc r
  | .one o t, acc, hn => by
    simp only [CondRestNames] at hn
    simp only [Where.evalRest, evalTree_frame h t hn]
  | .more o t r, acc, hn => by
    simp only [CondRestNames] at hn
    simp only [Where.evalRest, evalTree_frame h t hn.left]
    cases Where.evalTree s'.W t with
    | error x => rfl
    | ok a => exact evalTreeRest_frame h r _ hn.right
end

theorem evalWheres_frame (h : SameBut S s s') : ∀ (ts : List (Tree Where.Op Where.Leaf)) (acc : Arr Bool),
    (∀ t ∈ ts, Clear S (CondNames t)) → Where.evalWheres s.W acc ts = Where.evalWheres s'.W acc ts
  | [], _, _ => rfl
  | t :: ts, acc, hn => by
    simp only [Where.evalWheres, evalTree_frame h t (hn t List.mem_cons_self)]
    cases Where.evalTree s'.W t with
    | error x => rfl
    | ok a => exact evalWheres_frame h ts _ (fun u hu => hn u (List.mem_cons_of_mem _ hu))

theorem topLevel_frame (h : SameBut S s s') (sets : List String) (t : Tree Where.Op Where.Leaf)
    (hn : Clear S (CondNames t)) : Where.topLevel s.W sets t = Where.topLevel s'.W sets t := by
  have hf : Where.foreachMask s.W sets = Where.foreachMask s'.W sets := by
    simp only [Where.foreachMask, h.matrix, h.dims]
  have hw := evalWheres_frame h [t] (Where.foreachMask s'.W sets) (by simpa using hn)
  simp only [Where.topLevel, hf, hw, h.coords, Where.dropDims]

theorem equationMask_frame (h : SameBut S s s') (sets : List String) (top : Tree Where.Op Where.Leaf)
    (ws : List (Tree Where.Op Where.Leaf)) (hn : Clear S (CondNames top)) (hw : ∀ t ∈ ws, Clear S (CondNames t)) :
    Where.equationMask s.W sets top ws = Where.equationMask s'.W sets top ws := by
  simp only [Where.equationMask, topLevel_frame h sets top hn, h.coords, Where.dropDims]
  cases Where.topLevel s'.W sets top with
  | error x => rfl
  | ok t => simp only [evalWheres_frame h ws t hw]

/-! ### Values of expressions -/

variable [Field V]

mutual
theorem evalEx_frame (h : SameBut S s s') {slices : String → Option SliceDef}
    (hs : ∀ n d, slices n = some d → Clear S (SliceNames d)) (sub : Arr Bool → String → Res V) (w : Arr Bool) :
    ∀ (t : Ex V), Clear S (Names t) → evalEx s.E slices sub w t = evalEx s'.E slices sub w t
  | .num _, _ => by simp only [evalEx]
  | .comp n, hn => by
    simp only [Names] at hn
    simp only [evalEx, compArr_frame h hn.head]
  | .sliced n ss, hn => by
    simp only [Names] at hn
    simp only [evalEx, compArr_frame h hn.head, selAll_frame h hs]
  | .sub _, _ => by simp only [evalEx]
  | .sign o t, hn => by
    simp only [Names] at hn
    simp only [evalEx, evalEx_frame h hs sub w t hn, h.neg]
  | .chain t r, hn => by
    simp only [Names] at hn
    simp only [evalEx, evalEx_frame h hs sub w t hn.left]
    cases evalEx s'.E slices sub w t with
    | error x => rfl
    | ok a => exact evalRest_frame h hs sub w r _ hn.right
  | .sum t over, hn => by
    simp only [Names] at hn
    simp only [evalEx, evalEx_frame h hs sub w t hn, h.ecoords]
  | .reduceCarrier t flow, hn => by
    simp only [Names] at hn
    simp only [evalEx, evalEx_frame h hs sub w t hn.tail, h.carrier flow hn.head, h.ecoords]
  | .cond t c, hn => by
    simp only [Names] at hn
    simp only [evalEx, evalEx_frame h hs sub w t hn.left, evalEx_frame h hs sub w c hn.right, condArr_frame h]
  | .roll t shifts, hn => by
    simp only [Names] at hn
    simp only [evalEx, evalEx_frame h hs sub trueArr t hn, h.ecoords]
  | .groupSum t g d, hn => by
    simp only [Names] at hn
    simp only [evalEx, evalEx_frame h hs sub trueArr t hn.tail, h.lookup g hn.head, h.ecoords]
  | .groupDatetime t over group, hn => by
    simp only [Names] at hn
    simp only [evalEx, evalEx_frame h hs sub trueArr t hn, h.ecoords, h.period]
  | .sumNextN t over n, hn => by
    simp only [Names] at hn
    simp only [evalEx, evalEx_frame h hs sub w t hn, h.ecoords]
  | .select t ls, hn => by
    simp only [Names] at hn
    simp only [evalEx, evalEx_frame h hs sub w t hn.right, lookups_frame h ls hn.left, h.ecoords]
theorem evalRest_frame (h : SameBut S s s') {slices : String → Option SliceDef}
    (hs : ∀ n d, slices n = some d → Clear S (SliceNames d)) (sub : Arr Bool → String → Res V) (w : Arr Bool) :
    ∀ (r : ExRest V) (acc : Arr (Option V)), Clear S (NamesRest r) →
      Expr.evalRest s.E slices sub w acc r = Expr.evalRest s'.E slices sub w acc r
  | .one o t, acc, hn => by
    simp only [NamesRest] at hn
    simp only [Expr.evalRest, evalEx_frame h hs sub w t hn, h.op]
  | .more o t r, acc, hn => by
    simp only [NamesRest] at hn
    simp only [Expr.evalRest, evalEx_frame h hs sub w t hn.left, h.op]
    cases evalEx s'.E slices sub w t with
    | error x => rfl
    | ok a => exact evalRest_frame h hs sub w r _ hn.right
end

theorem evalSide_frame (h : SameBut S s s') {slices : String → Option SliceDef} {subs : String → Option (Ex V)}
    (hs : ∀ n d, slices n = some d → Clear S (SliceNames d)) (hu : ∀ n t, subs n = some t → Clear S (Names t))
    (w : Arr Bool) (t : Ex V) (ht : Clear S (Names t)) :
    evalSide s.E slices subs w t = evalSide s'.E slices subs w t := by
  have hsub : evalSub s.E slices subs = evalSub s'.E slices subs := by
    funext w n
    simp only [evalSub]
    cases hn : subs n with
    | none => rfl
    | some u => exact evalEx_frame h hs _ w u (hu n u hn)
  simp only [evalSide, hsub]
  exact evalEx_frame h hs _ w t ht

/-! ### Components -/

/-- The names of an expanded equation do not change. -/
structure ClearEq (S : String → Prop) (e : Equation V Cond) : Prop where
  wheres : ∀ t ∈ e.wheres, Clear S (CondNames t)
  body : Clear S (BodyNames e.body)
  subs : ∀ n t, e.subs.lookup n = some t → Clear S (Names t)
  slices : ∀ n d, e.slices.lookup n = some d → Clear S (SliceNames d)

omit [Field V] in
theorem lookup_map_mem {α β : Type} {f : α → String × β} {l : List α} {n : String} {b : β}
    (h : (l.map f).lookup n = some b) : ∃ a ∈ l, f a = (n, b) := by
  obtain hm := lookup_mem h
  simpa using hm

omit [Field V] in
theorem clearEq {c : Component V} {enum : List String → List String} {es : List (Equation V Cond)}
    (hp : parseEquations enum c.defn = .ok es) (hn : Clear S (ComponentNames c)) {e : Equation V Cond} (he : e ∈ es) :
    ClearEq S e := by
  obtain ⟨i, w, body, hi, cs, hcs, ss, hss, hb, _, hw, hs, hl⟩ := (C44_product hp e).1 he
  have hmem := List.mem_of_getElem? hi
  have h1 : Clear S (CondNames w ++ BodyNames body) := fun n hm => hn n (by
    simp only [ComponentNames, List.mem_append, List.mem_flatMap]
    exact .inl (.inl (.inr ⟨_, hmem, List.mem_append.1 hm⟩)))
  have h2 : ∀ a ∈ cs, ∃ u, a.wheres = [u] ∧ Clear S (CondNames u) ∧ Clear S (Names a.expr) := by
    intro a ha
    obtain ⟨l, u, hl, hx, hu⟩ := hcs.2 a ha
    have hm1 := lookup_mem hl
    have hm2 := List.mem_of_getElem? hx
    have : Clear S (CondNames u ++ Names a.expr) := fun n hm => hn n (by
      simp only [ComponentNames, List.mem_append, List.mem_flatMap]
      exact .inl (.inr ⟨_, hm1, _, hm2, List.mem_append.1 hm⟩))
    exact ⟨u, hu, this.left, this.right⟩
  have h3 : ∀ a ∈ ss, ∃ u, a.wheres = [u] ∧ Clear S (CondNames u) ∧ Clear S (SliceNames a.expr) := by
    intro a ha
    obtain ⟨l, u, hl, hx, hu⟩ := hss.2 a ha
    have hm1 := lookup_mem hl
    have hm2 := List.mem_of_getElem? hx
    have : Clear S (CondNames u ++ SliceNames a.expr) := fun n hm => hn n (by
      simp only [ComponentNames, List.mem_append, List.mem_flatMap]
      exact .inr ⟨_, hm1, _, hm2, List.mem_append.1 hm⟩)
    exact ⟨u, hu, this.left, this.right⟩
  refine ⟨?_, hb ▸ h1.right, ?_, ?_⟩
  · intro t ht
    rw [hw] at ht
    simp only [List.mem_cons, List.mem_append, List.mem_flatMap] at ht
    rcases ht with rfl | ⟨a, ha, hta⟩ | ⟨a, ha, hta⟩
    · exact h1.left
    · obtain ⟨u, hu, hc, _⟩ := h2 a ha
      rw [hu, List.mem_singleton] at hta
      exact hta ▸ hc
    · obtain ⟨u, hu, hc, _⟩ := h3 a ha
      rw [hu, List.mem_singleton] at hta
      exact hta ▸ hc
  · intro n t ht
    rw [hs] at ht
    obtain ⟨a, ha, hf⟩ := lookup_map_mem ht
    obtain ⟨_, _, _, hc⟩ := h2 a ha
    obtain ⟨_, rfl⟩ := Prod.mk.inj hf
    exact hc
  · intro n t ht
    rw [hl] at ht
    obtain ⟨a, ha, hf⟩ := lookup_map_mem ht
    obtain ⟨_, _, _, hc⟩ := h3 a ha
    obtain ⟨_, rfl⟩ := Prod.mk.inj hf
    exact hc

theorem setExpression_frame (h : SameBut S s s') {e : Equation V Cond} (he : ClearEq S e) (m : Arr Bool) :
    setExpression s.E e m = setExpression s'.E e m := by
  have hb := he.body
  simp only [setExpression]
  split
  · rename_i t ht
    rw [ht] at hb
    simp only [evalExpression, evalSide_frame h he.slices he.subs m t hb, checkWhere, h.ecoords]
  · rfl

theorem setConstraint_frame (h : SameBut S s s') {e : Equation V Cond} (he : ClearEq S e) (m : Arr Bool) :
    setConstraint s.E e m = setConstraint s'.E e m := by
  have hb := he.body
  simp only [setConstraint]
  split
  · rename_i l o r ht
    rw [ht] at hb
    simp only [BodyNames] at hb
    simp only [evalComparison, evalSide_frame h he.slices he.subs m l hb.left,
      evalSide_frame h he.slices he.subs m r hb.right]
  · rfl

omit [Field V] in
theorem buildLoop_frame {R : Type} (h : SameBut S s s') (c : Component V) (hn : Clear S (CondNames c.top))
    {f f' : Equation V Cond → Arr Bool → Except Err (Arr (Option R))} : ∀ (es : List (Equation V Cond))
    (acc : Arr (Option R)), (∀ e ∈ es, ClearEq S e) → (∀ e ∈ es, ∀ m, f e m = f' e m) →
    buildLoop s.W c f acc es = buildLoop s'.W c f' acc es
  | [], _, _, _ => rfl
  | e :: es, acc, he, hf => by
    have ih := fun acc => buildLoop_frame h c hn es acc (fun a ha => he a (List.mem_cons_of_mem _ ha))
      (fun a ha => hf a (List.mem_cons_of_mem _ ha))
    simp only [buildLoop, equationMask_frame h c.foreach c.top e.wheres hn (he e List.mem_cons_self).wheres,
      h.coords, hf e List.mem_cons_self, ih]

omit [Field V] in
theorem build_frame {R : Type} (h : SameBut S s s') (enum : List String → List String) (c : Component V)
    (hn : Clear S (ComponentNames c)) {f f' : Equation V Cond → Arr Bool → Except Err (Arr (Option R))}
    (hf : ∀ e, ClearEq S e → ∀ m, f e m = f' e m) : build s.W enum c f = build s'.W enum c f' := by
  have ht : Clear S (CondNames c.top) := fun n hm => hn n (by
    simp only [ComponentNames, List.mem_append]
    exact .inl (.inl (.inl hm)))
  simp only [build, topLevel_frame h c.foreach c.top ht, h.coords]
  cases Where.topLevel s'.W c.foreach c.top with
  | error x => rfl
  | ok t =>
    simp only
    split
    · cases hp : parseEquations enum c.defn with
      | error x => rfl
      | ok es =>
        exact buildLoop_frame h c ht es _ (fun e he => clearEq hp hn he) (fun e he m => hf e (clearEq hp hn he) m)
    · rfl

theorem buildExpression_frame (h : SameBut S s s') (enum : List String → List String) (c : Component V)
    (hn : Clear S (ComponentNames c)) : buildExpression s.W s.E enum c = buildExpression s'.W s'.E enum c :=
  build_frame h enum c hn (fun _ he m => setExpression_frame h he m)

theorem buildConstraint_frame (h : SameBut S s s') (enum : List String → List String) (c : Component V)
    (hn : Clear S (ComponentNames c)) : buildConstraint s.W s.E enum c = buildConstraint s'.W s'.E enum c :=
  build_frame h enum c hn (fun _ he m => setConstraint_frame h he m)

omit [Field V] in
theorem boundArr_frame (h : SameBut S s s') {b : Bound V} (hn : Clear S (BoundNames b)) :
    boundArr s.E b = boundArr s'.E b := by
  cases b with
  | num v => rfl
  | unbounded => rfl
  | input n => simp only [boundArr, h.comp n (hn n (by simp [BoundNames]))]

omit [Field V] in
theorem buildVariable_frame (h : SameBut S s s') (v : Variable V) (hn : Clear S (VariableNames v)) :
    buildVariable s.W s.E v = buildVariable s'.W s'.E v := by
  simp only [VariableNames] at hn
  simp only [buildVariable, variableMask, topLevel_frame h v.foreach v.top hn.left.left,
    boundArr_frame h hn.left.right, boundArr_frame h hn.right, h.coords]

/-! ### The whole problem -/

omit [Field V] in
/-- An array that may change is put in place. -/
theorem SameBut.put_changed (h : SameBut S s s') {n : String} (hn : S n) (a a' : Arr (Option V)) (d d' : Option V) :
    SameBut S (s.put n a d) (s'.put n a' d') := by
  refine { h with result := ?_, comp := ?_ }
  · intro m hm
    have : m ≠ n := fun e => hm (e ▸ hn)
    simp only [State.put, this, if_false, h.result m hm]
  · intro m hm
    have : m ≠ n := fun e => hm (e ▸ hn)
    simp only [State.put, this, if_false, h.comp m hm]

omit [Field V] in
/-- The same array is put in place. -/
theorem SameBut.put_same (h : SameBut S s s') (n : String) (a : Arr (Option V)) (d : Option V) :
    SameBut S (s.put n a d) (s'.put n a d) := by
  refine { h with result := ?_, comp := ?_ }
  · intro m hm
    simp only [State.put, h.result m hm]
  · intro m hm
    simp only [State.put, h.comp m hm]

omit [Field V] in
theorem addAll_frame {α : Type} {add add' : State V → α → Except Err (State V)} : ∀ (l : List α) {s s' t t' : State V},
    SameBut S s s' → (∀ a ∈ l, ∀ {u u' w w' : State V}, SameBut S u u' → add u a = .ok w → add' u' a = .ok w' →
      SameBut S w w') → addAll add s l = .ok t → addAll add' s' l = .ok t' → SameBut S t t'
  | [], s, s', t, t', h, _, h1, h2 => by
    simp only [addAll, Except.ok.injEq] at h1 h2
    exact h1 ▸ h2 ▸ h
  | a :: l, s, s', t, t', h, hstep, h1, h2 => by
    simp only [addAll] at h1 h2
    split at h1
    · cases h1
    · rename_i w hw
      split at h2
      · cases h2
      · rename_i w' hw'
        exact addAll_frame l (hstep a List.mem_cons_self h hw hw')
          (fun b hb => hstep b (List.mem_cons_of_mem _ hb)) h1 h2

omit [Field V] in
theorem keepAll_get {α β : Type} {make : α → Except Err β} : ∀ {l : List α} {bs : List β}, keepAll make l = .ok bs →
    ∀ (i : Nat) (c : α), l[i]? = some c → ∃ b, bs[i]? = some b ∧ make c = .ok b
  | [], _, _, i, c, hc => by simp at hc
  | a :: l, bs, h, i, c, hc => by
    simp only [keepAll] at h
    split at h
    · cases h
    · rename_i b hb
      split at h
      · cases h
      · rename_i bs' hbs
        simp only [Except.ok.injEq] at h
        subst h
        cases i with
        | zero =>
          simp only [List.getElem?_cons_zero, Option.some.injEq] at hc
          subst hc
          exact ⟨b, rfl, hb⟩
        | succ i =>
          simp only [List.getElem?_cons_succ] at hc ⊢
          exact keepAll_get hbs i c hc

/-- The names of a component that a change cannot reach are not reached. -/
theorem assemble_frame {M : Math V} {changed : String → Prop} {g g' : Given V} (hg : SameGiven changed g g')
    (h : SameBut changed s s') {P P' : Problem V} (h1 : assemble g M s = .ok P) (h2 : assemble g' M s' = .ok P') :
    SameBut (Affected M changed) P.state P'.state := by
  have h0 : SameBut (Affected M changed) s s' :=
    { h with
      input := fun n hn => h.input n (fun e => hn (.start e))
      result := fun n hn => h.result n (fun e => hn (.start e))
      number := fun n hn => h.number n (fun e => hn (.start e))
      sums := fun n hn => h.sums n (fun e => hn (.start e))
      comp := fun n hn => h.comp n (fun e => hn (.start e))
      lookup := fun n hn => h.lookup n (fun e => hn (.start e))
      carrier := fun f hn => h.carrier f (fun e => hn (.start e)) }
  simp only [assemble] at h1 h2
  split at h1
  · cases h1
  rename_i s1 hs1
  split at h1
  · cases h1
  rename_i s2 hs2
  split at h1
  · cases h1
  split at h1
  · cases h1
  simp only [Except.ok.injEq] at h1
  subst h1
  split at h2
  · cases h2
  rename_i s1' hs1'
  split at h2
  · cases h2
  rename_i s2' hs2'
  split at h2
  · cases h2
  split at h2
  · cases h2
  simp only [Except.ok.injEq] at h2
  subst h2
  have hv : SameBut (Affected M changed) s1 s1' := by
    refine addAll_frame M.vars h0 ?_ hs1 hs1'
    intro v hvm u u' w w' hu h1 h2
    simp only [addVariable] at h1 h2
    split at h1
    · cases h1
    rename_i b hb
    split at h2
    · cases h2
    rename_i b' hb'
    simp only [Except.ok.injEq] at h1 h2
    subst h1 h2
    by_cases hA : Affected M changed v.name
    · exact hu.put_changed hA _ _ _ _
    · have hc : Clear (Affected M changed) (VariableNames v) := fun n hn ha => hA (.byVariable hvm hn ha)
      rw [buildVariable_frame hu v hc, hb'] at hb
      simp only [Except.ok.injEq] at hb
      subst hb
      rw [hg.x _ (fun e => hA (.start e)), hg.default _ (fun e => hA (.start e))]
      exact hu.put_same _ _ _
  refine addAll_frame M.globals hv ?_ hs2 hs2'
  intro c hcm u u' w w' hu h1 h2
  simp only [addGlobal] at h1 h2
  split at h1
  · cases h1
  rename_i b hb
  split at h2
  · cases h2
  rename_i b' hb'
  simp only [Except.ok.injEq] at h1 h2
  subst h1 h2
  by_cases hA : Affected M changed c.defn.name
  · exact hu.put_changed hA _ _ _ _
  · have hc : Clear (Affected M changed) (ComponentNames c) := fun n hn ha => hA (.byGlobal hcm hn ha)
    rw [buildExpression_frame hu _ c hc, hg.enum, hb'] at hb
    simp only [Except.ok.injEq] at hb
    subst hb
    rw [hg.default _ (fun e => hA (.start e))]
    exact hu.put_same _ _ _

omit [Field V] in
theorem assemble_parts [Field V] {M : Math V} {g : Given V} {P : Problem V} (h : assemble g M s = .ok P) :
    keepAll (buildConstraint P.state.W P.state.E g.enum) M.constraints = .ok P.constraints ∧
      keepAll (buildExpression P.state.W P.state.E g.enum) M.objectives = .ok P.objectives := by
  simp only [assemble] at h
  split at h
  · cases h
  split at h
  · cases h
  rename_i s2 hs2
  split at h
  · cases h
  rename_i cs hcs
  split at h
  · cases h
  rename_i os hos
  simp only [Except.ok.injEq] at h
  subst h
  exact ⟨hcs, hos⟩

end Assemble
end Calliope
