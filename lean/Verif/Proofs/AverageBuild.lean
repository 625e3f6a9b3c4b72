import Verif.Proofs.Average
import Verif.Proofs.TypicalBuild
import Verif.Proofs.Linear

/-!
# Problems of averages
-/

namespace Calliope
namespace Average

open Grid Expr Build BaseMath Assemble Expand
open Rename (Same Good Covers Masks Limited same_scalar addAll_same keepAll_same)
open Units (Both)
open Typical (Choice Kind Labels Like Scaled kindOf Nones Fine Keeps like_mask like_sum like_op)
open Linear (Among joinAll_mem)

variable {V : Type} [Field V] {T : Choice} {w w' : Label → V} {coords coords' : String → List Label} {E E' : Expr.Env V}
  {depends : String → Bool}

/-! ### Arrays -/

/-- What does not depend on decisions is the same; what does, the average. -/
def Rel (T : Choice) (w w' : Label → V) (coords coords' : String → List Label) :
    Linear.Kind → Kind → Arr (Option V) → Arr (Option V) → Prop
  | .fixed, k => Like T w w' coords coords' k
  | .linear, k => Mean T w w' coords coords' k

variable {d e : Linear.Kind} {j k : Kind} {a a' b b' : Arr (Option V)}

theorem Rel.mean (hl : Labels T w w' coords coords') (h : Rel T w w' coords coords' d k a a') :
    Mean T w w' coords coords' k a a' := by
  cases d with
  | fixed => exact like_mean hl h
  | linear => exact h

theorem Rel.weaken (hl : Labels T w w' coords coords') (hd : e = .fixed → d = .fixed) (h : Rel T w w' coords coords' d k a a') :
    Rel T w w' coords coords' e k a a' := by
  cases e with
  | fixed => exact hd rfl ▸ h
  | linear => exact h.mean hl

theorem rel_mask (hl : Labels T w w' coords coords') (h : Rel T w w' coords coords' d k a a') {m m' : Arr Bool}
    (hm : Same T.names coords m m') (hn : m.dims.Nodup) : Rel T w w' coords coords' d k (maskArr m a) (maskArr m' a') := by
  cases d with
  | fixed => exact like_mask hl h hm hn
  | linear =>
    refine Mean.zipData hl h hm hn (μ := fun y => if y then some 1 else none) fun x y => ?_
    cases y <;> cases x <;> simp

theorem rel_sum (hl : Labels T w w' coords coords') (h : Rel T w w' coords coords' d j a a') {over : List String}
    (hk : Typical.sumKind over j = some k) :
    Rel T w w' coords coords' d k (sumArr coords over a) (sumArr coords' over a') := by
  cases d with
  | fixed => exact like_sum hl h hk
  | linear => exact Mean.sum hl h hk

theorem rel_add (hl : Labels T w w' coords coords') (hp : Linear.Plain E) {o : Arith.Op} (ho : o = .plus ∨ o = .minus)
    (ha : Mean T w w' coords coords' k a a') (hb : Mean T w w' coords coords' k b b') :
    Mean T w w' coords coords' k (zip (E.op o) a b) (zip (E.op o) a' b') := by
  have hpow : o ≠ .pow := by rcases ho with rfl | rfl <;> simp
  refine Mean.add hl ha hb (s := if o = .plus then 1 else -1) fun x y => ?_
  cases x with
  | none => simp [hp.left o _ hpow]
  | some x =>
    cases y with
    | none => simp [hp.right o _ hpow]
    | some y => rcases ho with rfl | rfl <;> simp [hp.plus, hp.minus, sub_eq_add_neg]

theorem times_data (hp : Linear.Plain E) (x y : Option V) : E.op .times x y = x.bind (fun m => y.map (fun z => m * z)) := by
  have hpow : Arith.Op.times ≠ .pow := by simp
  cases x with
  | none => simp [hp.left _ _ hpow]
  | some x =>
    cases y with
    | none => simp [hp.right _ _ hpow]
    | some y => simp [hp.times]

theorem times_data' (hp : Linear.Plain E) (x y : Option V) : E.op .times x y = y.bind (fun m => x.map (fun z => m * z)) := by
  rw [times_data hp]
  cases x <;> cases y <;> simp [mul_comm]

open Classical in
/-- What dividing by a number multiplies with. -/
noncomputable def inverse (y : Option V) : Option V := y.bind (fun y => if y = 0 then none else some y⁻¹)

theorem div_data (hp : Linear.Plain E) (x y : Option V) : E.op .div x y = (inverse y).bind (fun m => x.map (fun z => m * z)) := by
  have hpow : Arith.Op.div ≠ .pow := by simp
  cases x with
  | none => cases inverse y <;> simp [hp.left _ _ hpow]
  | some x =>
    cases y with
    | none => simp [hp.right _ _ hpow, inverse]
    | some y =>
      by_cases h0 : y = 0
      · subst h0
        simp [hp.divZero, inverse]
      · simp [hp.div _ _ h0, inverse, h0, div_eq_mul_inv, mul_comm]

theorem rel_op (hl : Labels T w w' coords coords') (hp : Linear.Plain E) {o : Arith.Op} {f : Linear.Kind} {m : Kind}
    (hf : Linear.combine o d e = some f) (hm : Typical.combine o j k = some m) (ha : Rel T w w' coords coords' d j a a')
    (hb : Rel T w w' coords coords' e k b b') : Rel T w w' coords coords' f m (zip (E.op o) a b) (zip (E.op o) a' b') := by
  by_cases hfix : d = .fixed ∧ e = .fixed
  · obtain ⟨rfl, rfl⟩ := hfix
    have : f = .fixed := by cases o <;> cases hf <;> rfl
    subst this
    exact like_op hl hp hm ha hb
  · have hlin : f = .linear := by
      cases o <;> cases d <;> cases e <;> simp_all [Linear.combine, Linear.Kind.join]
    subst hlin
    show Mean T w w' coords coords' m _ _
    have both : (o = .plus ∨ o = .minus) → Mean T w w' coords coords' m (zip (E.op o) a b) (zip (E.op o) a' b') := by
      intro ho
      have : j = k ∧ j = m := by
        rcases ho with rfl | rfl
        all_goals
          simp only [Typical.combine] at hm
          split at hm
          · exact ⟨by assumption, by simpa using hm⟩
          · cases hm
      obtain ⟨rfl, rfl⟩ := this
      exact rel_add hl hp ho (ha.mean hl) (hb.mean hl)
    cases o with
    | plus => exact both (.inl rfl)
    | minus => exact both (.inr rfl)
    | times =>
      cases d with
      | fixed =>
        cases e with
        | fixed => exact absurd ⟨rfl, rfl⟩ hfix
        | linear =>
          cases j with
          | plain =>
            simp only [Typical.combine, Option.some.injEq] at hm
            subst hm
            exact Mean.dataZip hl hb ha.1 ha.2 (μ := id) fun x y => times_data hp y x
          | scaled =>
            cases k with
            | scaled => cases hm
            | plain =>
              cases hm
              exact Mean.weighted hl hb ha (by simp only [Grid.zip, hb.dims, ha.1]) (joinDims_nodup ha.2.1 hb.nodup)
                (fun d hd => mem_joinDims.2 (.inr hd)) (fun d hd => mem_joinDims.2 (.inl hd))
                (fun ρ => by rw [at_zip]; exact times_data hp _ _) (fun ρ => by rw [at_zip]; exact times_data hp _ _)
      | linear =>
        cases e with
        | linear => cases hf
        | fixed =>
          cases k with
          | plain =>
            have : m = j := by cases j <;> cases hm <;> rfl
            subst this
            exact Mean.zipData hl ha hb.1 hb.2 (μ := id) fun x y => times_data' hp x y
          | scaled =>
            cases j with
            | scaled => cases hm
            | plain =>
              cases hm
              exact Mean.weighted hl ha hb (by simp only [Grid.zip, ha.dims, hb.1]) (joinDims_nodup ha.nodup hb.2.1)
                (fun d hd => mem_joinDims.2 (.inl hd)) (fun d hd => mem_joinDims.2 (.inr hd))
                (fun ρ => by rw [at_zip]; exact times_data' hp _ _) (fun ρ => by rw [at_zip]; exact times_data' hp _ _)
    | div =>
      cases e with
      | linear => cases d <;> cases hf
      | fixed =>
        cases d with
        | fixed => exact absurd ⟨rfl, rfl⟩ hfix
        | linear =>
          cases k with
          | scaled => cases j <;> cases hm
          | plain =>
            have : m = j := by cases j <;> cases hm <;> rfl
            subst this
            exact Mean.zipData hl ha hb.1 hb.2 (μ := inverse) fun x y => div_data hp x y
    | pow => cases d <;> cases e <;> cases hf <;> exact absurd ⟨rfl, rfl⟩ hfix

/-! ### Expressions -/

/-- How an array depends on decisions. -/
def kindIn (depends : String → Bool) (n : String) : Linear.Kind := if depends n then .linear else .fixed

/-- Expressions see averages. -/
structure Envs (T : Choice) (w w' : Label → V) (coords coords' : String → List Label) (depends : String → Bool)
    (E E' : Expr.Env V) : Prop where
  labels : Labels T w w' coords coords'
  here : E.coords = coords
  there : E'.coords = coords'
  isDim : E'.isDim = E.isDim
  op : E'.op = E.op
  neg : E'.neg = E.neg
  truthy : E'.truthy = E.truthy
  numbers : Linear.Plain E
  carrier : ∀ n, Option.Rel (fun a a' => Same T.names coords a a' ∧ a.dims.Nodup) (E.carrier n) (E'.carrier n)
  comp : ∀ n, Option.Rel (fun c c' => Rel T w w' coords coords' (kindIn depends n) (kindOf T n) (map (fill c.default) c.arr)
    (map (fill c'.default) c'.arr)) (E.comp n) (E'.comp n)

theorem rel_like (hl : Labels T w w' coords coords') (d : Linear.Kind) (h : Like T w w' coords coords' k a a') :
    Rel T w w' coords coords' d k a a' := by
  cases d with
  | fixed => exact h
  | linear => exact like_mean hl h

theorem rel_comp (h : Envs T w w' coords coords' depends E E') (n : String) :
    Both (Rel T w w' coords coords' (kindIn depends n) (kindOf T n)) (compArr E n) (compArr E' n) := by
  have hc := h.comp n
  simp only [compArr, h.isDim]
  generalize E.comp n = x at hc ⊢
  generalize E'.comp n = y at hc ⊢
  cases hc with
  | none =>
    simp only
    split
    · exact rel_like h.labels _ (Typical.like_scalar_none _)
    · exact rfl
  | some hr => exact hr

theorem rel_neg (hl : Labels T w w' coords coords') (hp : Linear.Plain E) (h : Rel T w w' coords coords' d k a a') :
    Rel T w w' coords coords' d k (map E.neg a) (map E.neg a') := by
  cases d with
  | fixed =>
    cases k with
    | plain => exact ⟨h.1.map _, h.2⟩
    | scaled =>
      refine Scaled.map h ⟨fun c x => ?_, fun x hx => ?_⟩
      · cases x <;> simp [hp.neg, hp.negNone]
      · rcases hx with rfl | rfl <;> simp [hp.neg, hp.negNone]
  | linear => exact Mean.map hl h (m := -1) (d := none) (fun _ => .inl rfl) ⟨hp.negNone, fun x => by simp [hp.neg]⟩

theorem rel_cond (hl : Labels T w w' coords coords') (ht : E'.truthy = E.truthy) (ha : Rel T w w' coords coords' d k a a')
    (hb : Rel T w w' coords coords' .fixed .plain b b') :
    Rel T w w' coords coords' d k (condArr E a b) (condArr E' a' b') := by
  have hh : holds E' = holds E := by
    funext x
    cases x with
    | none => rfl
    | some v => simp only [holds, ht]
  simp only [condArr, hh]
  cases d with
  | fixed =>
    cases k with
    | plain => exact ⟨ha.1.zip hb.1 _, joinDims_nodup ha.2 hb.2⟩
    | scaled =>
      refine Scaled.zipPlain hl ha hb.1 hb.2 fun y => ?_
      rcases Bool.eq_false_or_eq_true (holds E y) with hy | hy <;> simp [Typical.Through, hy]
  | linear =>
    refine Mean.zipData hl ha hb.1 hb.2 (μ := fun y => if holds E y then some 1 else none) fun x y => ?_
    rcases Bool.eq_false_or_eq_true (holds E y) with hy | hy <;> cases x <;> simp [hy]

mutual
theorem evalEx_rel (h : Envs T w w' coords coords' depends E E') (slices : String → Option SliceDef) {kinds : String → Option Kind}
    {lins : String → Option Linear.Kind} {sub sub' : Arr Bool → String → Res V}
    (hsub : ∀ m m' n j e, Same T.names coords m m' → m.dims.Nodup → kinds n = some j → lins n = some e →
      Both (Rel T w w' coords coords' e j) (sub m n) (sub' m' n)) :
    ∀ (t : Ex V) {m m' : Arr Bool} {k : Kind} {d : Linear.Kind}, Same T.names coords m m' → m.dims.Nodup →
      Typical.kind T kinds t = some k → Linear.kind depends lins t = some d →
      Both (Rel T w w' coords coords' d k) (evalEx E slices sub m t) (evalEx E' slices sub' m' t)
  | .num v, _, _, _, _, _, _, hk, hd => by
    simp only [Typical.kind, Linear.kind, Option.some.injEq] at hk hd
    subst hk hd
    simp only [evalEx]
    exact ⟨same_scalar _, List.nodup_nil⟩
  | .comp n, _, _, _, _, _, _, hk, hd => by
    simp only [Typical.kind, Linear.kind, Option.some.injEq] at hk hd
    subst hk hd
    simp only [evalEx]
    exact rel_comp h n
  | .sub n, _, _, _, _, hm, hn, hk, hd => by
    simp only [Typical.kind, Linear.kind] at hk hd
    simp only [evalEx]
    exact hsub _ _ n _ _ hm hn hk hd
  | .sign o t, _, _, _, _, hm, hn, hk, hd => by
    simp only [Typical.kind, Linear.kind] at hk hd
    simp only [evalEx]
    rcases (evalEx_rel h slices hsub t hm hn hk hd).cases with ⟨e, e1, e2⟩ | ⟨a, a', e1, e2, ha⟩
    · simp only [e1, e2]; exact rfl
    · simp only [e1, e2, h.neg]
      split
      · exact rel_neg h.labels h.numbers ha
      · exact ha
  | .chain t r, _, _, _, _, hm, hn, hk, hd => by
    simp only [Typical.kind, Linear.kind, Option.bind_eq_some_iff] at hk hd
    obtain ⟨j, hj, hk⟩ := hk
    obtain ⟨e, he, hd⟩ := hd
    simp only [evalEx]
    rcases (evalEx_rel h slices hsub t hm hn hj he).cases with ⟨e, e1, e2⟩ | ⟨a, a', e1, e2, ha⟩
    · simp only [e1, e2]; exact rfl
    · simp only [e1, e2]
      exact evalRest_rel h slices hsub r hm hn (rel_mask h.labels ha hm hn) hk hd
  | .sum t over, _, _, _, _, hm, hn, hk, hd => by
    simp only [Typical.kind, Linear.kind, Option.bind_eq_some_iff] at hk hd
    obtain ⟨j, hj, hk⟩ := hk
    simp only [evalEx]
    rcases (evalEx_rel h slices hsub t hm hn hj hd).cases with ⟨e, e1, e2⟩ | ⟨a, a', e1, e2, ha⟩
    · simp only [e1, e2]; exact rfl
    · simp only [e1, e2, h.here, h.there]
      exact rel_sum h.labels ha hk
  | .reduceCarrier t flow, _, _, k, _, hm, hn, hk, hd => by
    simp only [Typical.kind, Linear.kind] at hk hd
    simp only [evalEx]
    rcases (evalEx_rel h slices hsub t hm hn hk hd).cases with ⟨e, e1, e2⟩ | ⟨a, a', e1, e2, ha⟩
    · simp only [e1, e2]; exact rfl
    · simp only [e1, e2, h.here, h.there]
      have hc := h.carrier flow
      generalize E.carrier flow = x at hc ⊢
      generalize E'.carrier flow = y at hc ⊢
      cases hc with
      | none => exact rfl
      | some hc =>
        refine rel_sum h.labels (rel_mask h.labels ha hc.1 hc.2) ?_
        cases k <;> rfl
  | .cond t c, _, _, _, _, hm, hn, hk, hd => by
    simp only [Typical.kind, Linear.kind] at hk hd
    split at hk
    · rename_i hc
      split at hd
      · rename_i hc'
        simp only [evalEx]
        rcases (evalEx_rel h slices hsub t hm hn hk hd).cases with ⟨e, e1, e2⟩ | ⟨a, a', e1, e2, ha⟩
        · simp only [e1, e2]; exact rfl
        · simp only [e1, e2]
          rcases (evalEx_rel h slices hsub c hm hn hc hc').cases with ⟨e, e1, e2⟩ | ⟨b, b', e1, e2, hb⟩
          · simp only [e1, e2]; exact rfl
          · simp only [e1, e2]
            exact rel_cond h.labels h.truthy ha hb
      · cases hd
    · cases hk
  | .sliced _ _, _, _, _, _, _, _, hk, _ => by simp only [Typical.kind] at hk; cases hk
  | .roll _ _, _, _, _, _, _, _, hk, _ => by simp only [Typical.kind] at hk; cases hk
  | .groupSum _ _ _, _, _, _, _, _, _, hk, _ => by simp only [Typical.kind] at hk; cases hk
  | .groupDatetime _ _ _, _, _, _, _, _, _, hk, _ => by simp only [Typical.kind] at hk; cases hk
  | .sumNextN _ _ _, _, _, _, _, _, _, hk, _ => by simp only [Typical.kind] at hk; cases hk
  | .select _ _, _, _, _, _, _, _, hk, _ => by simp only [Typical.kind] at hk; cases hk
theorem evalRest_rel (h : Envs T w w' coords coords' depends E E') (slices : String → Option SliceDef)
    {kinds : String → Option Kind} {lins : String → Option Linear.Kind} {sub sub' : Arr Bool → String → Res V}
    (hsub : ∀ m m' n j e, Same T.names coords m m' → m.dims.Nodup → kinds n = some j → lins n = some e →
      Both (Rel T w w' coords coords' e j) (sub m n) (sub' m' n)) :
    ∀ (r : ExRest V) {m m' : Arr Bool} {a a' : Arr (Option V)} {j k : Kind} {e d : Linear.Kind}, Same T.names coords m m' →
      m.dims.Nodup → Rel T w w' coords coords' e j a a' → Typical.kindRest T kinds j r = some k →
      Linear.kindRest depends lins e r = some d →
      Both (Rel T w w' coords coords' d k) (evalRest E slices sub m a r) (evalRest E' slices sub' m' a' r)
  | .one o t, _, _, _, _, _, _, _, _, hm, hn, ha, hk, hd => by
    simp only [Typical.kindRest, Linear.kindRest, Option.bind_eq_some_iff] at hk hd
    obtain ⟨j, hj, hk⟩ := hk
    obtain ⟨e, he, hd⟩ := hd
    simp only [evalRest]
    rcases (evalEx_rel h slices hsub t hm hn hj he).cases with ⟨e, e1, e2⟩ | ⟨b, b', e1, e2, hb⟩
    · simp only [e1, e2]; exact rfl
    · simp only [e1, e2, h.op]
      exact rel_op h.labels h.numbers hd hk ha (rel_mask h.labels hb hm hn)
  | .more o t r, _, _, _, _, _, _, _, _, hm, hn, ha, hk, hd => by
    simp only [Typical.kindRest, Linear.kindRest, Option.bind_eq_some_iff] at hk hd
    obtain ⟨i, ⟨j, hj, hi⟩, hk⟩ := hk
    obtain ⟨f, ⟨e, he, hf⟩, hd⟩ := hd
    simp only [evalRest]
    rcases (evalEx_rel h slices hsub t hm hn hj he).cases with ⟨e, e1, e2⟩ | ⟨b, b', e1, e2, hb⟩
    · simp only [e1, e2]; exact rfl
    · simp only [e1, e2, h.op]
      exact evalRest_rel h slices hsub r hm hn (rel_op h.labels h.numbers hf hi ha (rel_mask h.labels hb hm hn)) hk hd
end

/-! ### Equations -/

variable {m m' : Arr Bool} {c : Component V}

theorem evalSide_rel (h : Envs T w w' coords coords' depends E E') {q : Equation V Cond} (hq : Among c q)
    {kinds : String → Option Kind}
    (hs : ∀ n t j, q.subs.lookup n = some t → kinds n = some j → Typical.kind T (fun _ => none) t = some j)
    (hm : Same T.names coords m m') (hn : m.dims.Nodup) {t : Ex V} (hk : Typical.kind T kinds t = some k)
    (hd : Linear.kind depends (Linear.subKind depends c.defn.subs) t = some d) :
    Both (Rel T w w' coords coords' d k) (evalSide E (fun n => q.slices.lookup n) (fun n => q.subs.lookup n) m t)
      (evalSide E' (fun n => q.slices.lookup n) (fun n => q.subs.lookup n) m' t) := by
  refine evalEx_rel h _ (kinds := kinds) (fun m m' n j e hm hn hj he => ?_) t hm hn hk hd
  simp only [evalSub]
  cases hx : q.subs.lookup n with
  | none => exact rfl
  | some u =>
    obtain ⟨l, v, hl, hu⟩ := hq.subs n u hx
    obtain ⟨i, hi, hij⟩ := joinAll_mem he (Linear.kind depends (fun _ => none) u) (List.mem_map.2 ⟨(v, u),
      List.mem_flatMap.2 ⟨(n, l), List.mem_filter.2 ⟨hl, by simp⟩, hu⟩, rfl⟩)
    refine (evalEx_rel h _ (kinds := fun _ => none) (lins := fun _ => none) (sub := fun _ _ => .error .keyError)
      (sub' := fun _ _ => .error .keyError) (fun _ _ _ _ _ _ _ h => by cases h) u hm hn (hs n u j hx hj) hi).mono
      fun _ _ hr => hr.weaken h.labels hij

theorem checkWhere_mean (h : Envs T w w' coords coords' depends E E') (hm : Same T.names coords m m')
    (ha : Mean T w w' coords coords' k a a') : checkWhere E' m' a' = checkWhere E m a := by
  have hs : Same T.names coords (zip (fun v b => v.isNone && b) a m) (zip (fun v b => v.isNone && b) a' m') := by
    have hp := (ha.present.zip hm (fun x b => !x && b))
    refine ⟨hp.1, fun ρ hρ => ?_⟩
    have := hp.2 ρ hρ
    simp only [at_zip, at_map, Option.not_isSome] at this ⊢
    exact this
  simp only [checkWhere, ha.dims, hm.1, h.here, h.there, hs.anyCell h.labels.covers]

theorem setExpression_rel (h : Envs T w w' coords coords' depends E E') {q : Equation V Cond} (hq : Among c q) (he : Fine T k q)
    (hd : Linear.componentKind depends c = some d) (hm : Same T.names coords m m') (hn : m.dims.Nodup) :
    Both (fun a a' => Rel T w w' coords coords' d k a a' ∧ ∀ x ∈ a.dims, x ∈ m.dims) (setExpression E q m) (setExpression E' q m') := by
  obtain ⟨kinds, hb, hs⟩ := he.kinds
  obtain ⟨v, hv⟩ := hq.body
  obtain ⟨i, hi, hid⟩ := joinAll_mem hd _ (List.mem_map.2 ⟨_, hv, rfl⟩)
  simp only [setExpression]
  cases hx : q.body with
  | cmp _ _ _ => exact rfl
  | arith t =>
    rw [hx] at hb hi
    simp only [Typical.bodyKind, Linear.bodyKind] at hb hi
    simp only [evalExpression]
    rcases (evalSide_rel h hq hs hm hn hb hi).cases with ⟨y, e1, e2⟩ | ⟨a, a', e1, e2, ha⟩
    · simp only [e1, e2]; exact rfl
    · simp only [e1, e2, checkWhere_mean h hm (ha.mean h.labels)]
      cases hw : checkWhere E m a with
      | error y => exact rfl
      | ok _ =>
        refine ⟨(rel_mask h.labels ha hm hn).weaken h.labels hid, fun x hx => ?_⟩
        rcases mem_joinDims.1 hx with hx | hx
        · simp only [checkWhere] at hw
          split at hw
          · rename_i hall
            simp only [List.all_eq_true, List.contains_eq_mem, decide_eq_true_eq] at hall
            exact hall x hx
          · cases hw
        · exact hx

/-! ### Constraints -/

/-- A side of a constraint at an item. -/
def side (f : Cell V → Option V) (a : Arr (Option (Cell V))) (ρ : Point) : V := ((a.at ρ).bind f).getD 0

/-- The sides of constraints are averages. -/
structure Cells (T : Choice) (w w' : Label → V) (coords coords' : String → List Label) (a a' : Arr (Option (Cell V))) :
    Prop where
  dims : a'.dims = a.dims
  present : Same T.names coords (map Option.isSome a) (map Option.isSome a')
  cell : ∀ ρ : Point, Good coords' a.dims ρ → ρ "timesteps" ∈ coords' "timesteps" → ∀ k', a'.at ρ = some k' →
    (∀ l ∈ group T coords (ρ "timesteps"), ∃ k, a.at (Expr.set ρ "timesteps" l) = some k ∧ k.op = k'.op ∧
      k.lhs.isSome = k'.lhs.isSome ∧ k.rhs.isSome = k'.rhs.isSome) ∧
    w' (ρ "timesteps") * k'.lhs.getD 0 =
      ((group T coords (ρ "timesteps")).map (fun l => w l * side Cell.lhs a (Expr.set ρ "timesteps" l))).sum ∧
    w' (ρ "timesteps") * k'.rhs.getD 0 =
      ((group T coords (ρ "timesteps")).map (fun l => w l * side Cell.rhs a (Expr.set ρ "timesteps" l))).sum

theorem setConstraint_mean (h : Envs T w w' coords coords' depends E E') {q : Equation V Cond} (hq : Among c q)
    (he : Fine T .plain q) (hd : Linear.componentKind depends c ≠ none) (hm : Same T.names coords m m') (hn : m.dims.Nodup) :
    Both (fun a a' => Cells T w w' coords coords' a a' ∧ ∀ x ∈ a.dims, x ∈ m.dims) (setConstraint E q m) (setConstraint E' q m') := by
  obtain ⟨kinds, hb, hs⟩ := he.kinds
  obtain ⟨v, hv⟩ := hq.body
  obtain ⟨d, hd⟩ := Option.ne_none_iff_exists'.1 hd
  obtain ⟨i, hi, -⟩ := joinAll_mem hd _ (List.mem_map.2 ⟨_, hv, rfl⟩)
  simp only [setConstraint]
  cases hx : q.body with
  | arith _ => exact rfl
  | cmp l o r =>
    rw [hx] at hb hi
    simp only [Typical.bodyKind, Linear.bodyKind] at hb hi
    obtain ⟨il, hil, -⟩ := joinAll_mem hi _ List.mem_cons_self
    obtain ⟨ir, hir, -⟩ := joinAll_mem hi _ (List.mem_cons_of_mem _ List.mem_cons_self)
    split at hb
    · rename_i hlr
      simp only [evalComparison]
      rcases (evalSide_rel h hq hs hm hn hlr.1 hil).cases with ⟨y, e1, e2⟩ | ⟨a, a', e1, e2, ha⟩
      · simp only [e1, e2]; exact rfl
      simp only [e1, e2]
      rcases (evalSide_rel h hq hs hm hn hlr.2 hir).cases with ⟨y, e1, e2⟩ | ⟨b, b', e1, e2, hb⟩
      · simp only [e1, e2]; exact rfl
      replace ha := ha.mean h.labels
      replace hb := hb.mean h.labels
      simp only [e1, e2, ha.dims, hb.dims, hm.1]
      by_cases h1 : (a.dims.all fun x => m.dims.contains x) = true
      · by_cases h2 : (b.dims.all fun x => m.dims.contains x) = true
        · simp only [h1, h2, if_true]
          simp only [List.all_eq_true, List.contains_eq_mem, decide_eq_true_eq] at h1 h2
          obtain ⟨z, hz⟩ : ∃ z : Arr (Option (Cell V)), z = map (fun p => p.map (fun ab => (⟨ab.1, o, ab.2⟩ : Cell V)))
            ⟨m.dims, fun c => if m.val c then some (a.val (pick m.dims c a.dims), b.val (pick m.dims c b.dims)) else none⟩ := ⟨_, rfl⟩
          obtain ⟨z', hz'⟩ : ∃ z : Arr (Option (Cell V)), z = map (fun p => p.map (fun ab => (⟨ab.1, o, ab.2⟩ : Cell V)))
            ⟨m.dims, fun c => if m'.val c then some (a'.val (pick m.dims c a.dims), b'.val (pick m.dims c b.dims)) else none⟩ := ⟨_, rfl⟩
          have at1 : ∀ ρ, z.at ρ = if m.at ρ then some ⟨a.at ρ, o, b.at ρ⟩ else none := by
            intro ρ
            rw [hz, at_map]
            simp only [Arr.at, pick_map _ _ _ h1, pick_map _ _ _ h2]
            rcases Bool.eq_false_or_eq_true (m.val (m.dims.map ρ)) with hh | hh <;> simp [hh]
          have at2 : ∀ ρ, z'.at ρ = if m'.at ρ then some ⟨a'.at ρ, o, b'.at ρ⟩ else none := by
            intro ρ
            rw [hz', at_map]
            simp only [Arr.at, pick_map _ _ _ h1, pick_map _ _ _ h2, hm.1, ha.dims, hb.dims]
            rcases Bool.eq_false_or_eq_true (m'.val (m.dims.map ρ)) with hh | hh <;> simp [hh]
          have d1 : z.dims = m.dims := by rw [hz]; rfl
          have d2 : z'.dims = m.dims := by rw [hz']; rfl
          have key : Cells T w w' coords coords' z z' ∧ ∀ x ∈ z.dims, x ∈ m.dims := by
            refine ⟨⟨d2.trans d1.symm, ⟨d2.trans d1.symm, fun ρ hρ => ?_⟩, fun ρ hρ ht k' hk' => ?_⟩, fun x hx => d1 ▸ hx⟩
            · have := hm.2 ρ (d1 ▸ hρ)
              rw [at_map, at_map, at1, at2, this]
              split <;> rfl
            · have ga : Good coords' a.dims ρ := fun x hx => hρ x (d1 ▸ h1 x hx)
              have gb : Good coords' b.dims ρ := fun x hx => hρ x (d1 ▸ h2 x hx)
              rw [at2] at hk'
              split at hk'
              · rename_i hmt
                cases hk'
                have hc : ∀ l ∈ group T coords (ρ "timesteps"), z.at (Expr.set ρ "timesteps" l) =
                    some ⟨a.at (Expr.set ρ "timesteps" l), o, b.at (Expr.set ρ "timesteps" l)⟩ := by
                  intro l hl
                  rw [at1, at_group h.labels hm (d1 ▸ hρ) hl, hmt, if_pos rfl]
                refine ⟨fun l hl => ⟨_, hc l hl, rfl, ha.some_group h.labels ga hl, hb.some_group h.labels gb hl⟩, ?_, ?_⟩
                · have := ha.mean ρ ga ht
                  simp only [factor, val] at this
                  rw [this]
                  refine congrArg List.sum (List.map_congr_left fun l hl => ?_)
                  simp only [side, hc l hl, Option.bind_some]
                · have := hb.mean ρ gb ht
                  simp only [factor, val] at this
                  rw [this]
                  refine congrArg List.sum (List.map_congr_left fun l hl => ?_)
                  simp only [side, hc l hl, Option.bind_some]
              · cases hk'
          rw [hz, hz'] at key
          exact key
        · simp only [h1, h2, if_true, Bool.false_eq_true, if_false]
          exact rfl
      · simp only [h1, Bool.false_eq_true, if_false]
        exact rfl
    · cases hb

theorem keeps_rel (hl : Labels T w w' coords coords') (d : Linear.Kind) (k : Kind) {sets : List String} (hn : sets.Nodup) :
    Keeps T.names coords sets (Rel T w w' coords coords' d k) where
  start := rel_like hl d (Typical.like_none k sets hn)
  nothing := rel_like hl d (Typical.like_scalar_none k)
  fill := by
    intro a a' b b' ha hb
    cases d with
    | fixed => exact (Typical.keeps_like hl k hn).fill ha hb
    | linear => exact Mean.fillna hl ha hb
  present := fun ha => (ha.mean hl).present

theorem at_fillna {S : Type} (a b : Arr (Option S)) (ρ : Point) : (fillna a b).at ρ = (a.at ρ).or (b.at ρ) := by
  rw [fillna, at_zip]
  cases a.at ρ <;> rfl

theorem keeps_cells (hl : Labels T w w' coords coords') (sets : List String) :
    Keeps T.names coords sets (Cells T w w' coords coords') where
  start := ⟨rfl, ⟨rfl, fun _ _ => rfl⟩, fun _ _ _ _ h => by cases h⟩
  nothing := ⟨rfl, ⟨rfl, fun _ _ => rfl⟩, fun _ _ _ _ h => by cases h⟩
  fill := by
    intro a a' b b' ha hb
    have sa : ∀ {cs : String → List Label} {ρ}, Good cs (fillna a b).dims ρ → Good cs a.dims ρ :=
      fun hρ d hd => hρ d (mem_joinDims.2 (.inl hd))
    have sb : ∀ {cs : String → List Label} {ρ}, Good cs (fillna a b).dims ρ → Good cs b.dims ρ :=
      fun hρ d hd => hρ d (mem_joinDims.2 (.inr hd))
    have hd : (fillna a' b').dims = (fillna a b).dims := by
      show joinDims a'.dims b'.dims = joinDims a.dims b.dims
      rw [ha.dims, hb.dims]
    refine ⟨hd, ⟨hd, fun ρ hρ => ?_⟩, fun ρ hρ ht k' hk' => ?_⟩
    · have e1 := ha.present.2 ρ (sa hρ)
      have e2 := hb.present.2 ρ (sb hρ)
      simp only [at_map] at e1 e2
      simp only [at_map, at_fillna, Option.isSome_or, e1, e2]
    · rw [at_fillna] at hk'
      cases hx : a'.at ρ with
      | some x =>
        rw [hx, Option.some_or] at hk'
        cases hk'
        obtain ⟨h1, h2, h3⟩ := ha.cell ρ (sa hρ) ht k' hx
        have hc : ∀ l ∈ group T coords (ρ "timesteps"), (fillna a b).at (Expr.set ρ "timesteps" l) = a.at (Expr.set ρ "timesteps" l) := by
          intro l hl
          obtain ⟨k, hk, _⟩ := h1 l hl
          rw [at_fillna, hk, Option.some_or]
        refine ⟨fun l hl => ?_, ?_, ?_⟩
        · rw [hc l hl]
          exact h1 l hl
        · rw [h2]
          refine congrArg List.sum (List.map_congr_left fun l hl => ?_)
          simp only [side, hc l hl]
        · rw [h3]
          refine congrArg List.sum (List.map_congr_left fun l hl => ?_)
          simp only [side, hc l hl]
      | none =>
        rw [hx, Option.none_or] at hk'
        obtain ⟨h1, h2, h3⟩ := hb.cell ρ (sb hρ) ht k' hk'
        have hc : ∀ l ∈ group T coords (ρ "timesteps"), (fillna a b).at (Expr.set ρ "timesteps" l) = b.at (Expr.set ρ "timesteps" l) := by
          intro l hg
          have := at_group hl ha.present (sa hρ) hg
          rw [at_map, at_map, hx] at this
          have : a.at (Expr.set ρ "timesteps" l) = none := by simpa using this
          rw [at_fillna, this, Option.none_or]
        refine ⟨fun l hl => ?_, ?_, ?_⟩
        · rw [hc l hl]
          exact h1 l hl
        · rw [h2]
          refine congrArg List.sum (List.map_congr_left fun l hl => ?_)
          simp only [side, hc l hl]
        · rw [h3]
          refine congrArg List.sum (List.map_congr_left fun l hl => ?_)
          simp only [side, hc l hl]
  present := fun ha => ha.present

/-! ### Problems -/

variable {s s' : State V} {g g' : Given V} {M : Math V}

/-- States of all steps and of averages. -/
structure States (T : Choice) (w w' : Label → V) (coords coords' : String → List Label) (depends : String → Bool)
    (s s' : State V) : Prop where
  W : Masks T.names s.W s'.W
  E : Envs T w w' coords coords' depends s.E s'.E
  here : s.W.coords = coords
  there : s'.W.coords = coords'
  none : Nones T s.W
  none' : Nones T s'.W

theorem rel_fill (hl : Labels T w w' coords coords') (h : Rel T w w' coords coords' d k a a') {v : Option V}
    (hv : k = .scaled → v = none ∨ v = some 0) : Rel T w w' coords coords' d k (map (fill v) a) (map (fill v) a') := by
  cases d with
  | fixed =>
    cases k with
    | plain => exact ⟨h.1.map _, h.2⟩
    | scaled => exact Scaled.map h (Typical.fill_default (hv rfl))
  | linear => exact Mean.map hl h (m := 1) (d := v) hv ⟨by cases v <;> rfl, fun x => by cases v <;> simp [fill]⟩

theorem states_put (h : States T w w' coords coords' depends s s') (n : String)
    (ha : Rel T w w' coords coords' (kindIn depends n) (kindOf T n) a a') {v : Option V}
    (hv : kindOf T n = .scaled → v = none ∨ v = some 0)
    (hn : n ∈ T.gone → (∀ ρ, (a.at ρ).isSome = false) ∧ ∀ ρ, (a'.at ρ).isSome = false) :
    States T w w' coords coords' depends (s.put n a v) (s'.put n a' v) := by
  refine ⟨⟨h.W.labels, h.W.dims, h.W.config, h.W.arith, h.W.matrix, h.W.kind, h.W.default, h.W.input, h.W.held, ?_,
    h.W.number, h.W.sums⟩, ⟨h.E.labels, h.E.here, h.E.there, h.E.isDim, h.E.op, h.E.neg, h.E.truthy,
    Linear.Plain.mk h.E.numbers.plus h.E.numbers.minus h.E.numbers.times h.E.numbers.div h.E.numbers.divZero
      h.E.numbers.left h.E.numbers.right h.E.numbers.neg h.E.numbers.negNone, h.E.carrier, ?_⟩,
    h.here, h.there, Typical.nones_put h.none n a v fun hm => (hn hm).1, Typical.nones_put h.none' n a' v fun hm => (hn hm).2⟩
  · intro m
    simp only [State.put]
    split
    · refine .some ?_
      rw [h.here]
      exact (ha.mean h.E.labels).present
    · exact h.W.result m
  · intro m
    simp only [State.put]
    split
    · rename_i e
      subst e
      exact .some (rel_fill h.E.labels ha hv)
    · exact h.E.comp m

theorem boundArr_rel (h : States T w w' coords coords' depends s s') (b : Bound V)
    (hb : ∀ n ∈ BoundNames b, kindOf T n = .plain ∧ depends n = false) :
    Both (Same T.names coords) (boundArr s.E b) (boundArr s'.E b) := by
  cases b with
  | num v => exact same_scalar _
  | unbounded => exact same_scalar _
  | input n =>
    have hc := h.E.comp n
    obtain ⟨h1, h2⟩ := hb n (by simp [BoundNames])
    simp only [h1, kindIn, h2] at hc
    simp only [boundArr]
    generalize s.E.comp n = x at hc ⊢
    generalize s'.E.comp n = y at hc ⊢
    cases hc with
    | none => exact rfl
    | some hr => exact hr.1

theorem buildVariable_rel (h : States T w w' coords coords' depends s s') (hb : Rename.Bounded M s) {v : Variable V} (hv : v ∈ M.vars)
    (hn : Typical.variableOk T v = true) (hd : ∀ n ∈ BoundNames v.lower ++ BoundNames v.upper, depends n = false) :
    Both (fun b b' => Same T.names coords b b' ∧ (b.dims = v.foreach ∨ b = scalar none) ∧
        (v.name ∈ T.gone → b = scalar none ∧ b' = scalar none))
      (buildVariable s.W s.E v) (buildVariable s'.W s'.E v) := by
  have hbn : ∀ n ∈ BoundNames v.lower ++ BoundNames v.upper, kindOf T n = .plain := by
    have := hn
    simp only [Typical.variableOk, Bool.and_eq_true, decide_eq_true_eq, List.all_eq_true] at this
    exact this.1.2
  have := Typical.buildVariable_of h.W h.none h.none' hb hv hn fun b hb => by
    rw [h.here]
    exact boundArr_rel h b fun n hn => ⟨hbn n (hb n hn), hd n (hb n hn)⟩
  rwa [h.here] at this

/-- Decisions of typical steps are averages. -/
structure Means (T : Choice) (w w' : Label → V) (coords coords' : String → List Label) (M : Math V) (g g' : Given V) : Prop where
  x : ∀ v ∈ M.vars, ∀ ρ : Point, Good coords' v.foreach ρ → ρ "timesteps" ∈ coords' "timesteps" →
    w' (ρ "timesteps") * g'.x v.name (v.foreach.map ρ) =
      ((group T coords (ρ "timesteps")).map (fun l => w l * g.x v.name (v.foreach.map (Expr.set ρ "timesteps" l)))).sum
  default : g'.default = g.default
  enum : g'.enum = g.enum

theorem addVariable_rel (h : States T w w' coords coords' depends s s') (hg : Means T w w' coords coords' M g g') (hl : Limited M s)
    {v : Variable V} (hv : v ∈ M.vars) (hn : Typical.variableOk T v = true)
    (hd : depends v.name = true ∧ ∀ n ∈ BoundNames v.lower ++ BoundNames v.upper, depends n = false) :
    Both (fun x x' => States T w w' coords coords' depends x x' ∧ Limited M x) (addVariable g s v) (addVariable g' s' v) := by
  have hk : kindOf T v.name = .plain := by
    simp only [Typical.variableOk, Bool.and_eq_true, decide_eq_true_eq] at hn
    exact hn.1.1.2
  simp only [addVariable]
  rcases (buildVariable_rel h (fun v hv n hn => (hl v hv n hn).2) hv hn hd.2).cases with ⟨y, e1, e2⟩ | ⟨b, b', e1, e2, hb⟩
  · simp only [e1, e2]; exact rfl
  simp only [e1, e2, hg.default]
  refine ⟨states_put h v.name ?_ (fun hs => by rw [hk] at hs; cases hs) ?_, ?_⟩
  · rw [hk, kindIn, hd.1]
    have a1 : ∀ ρ, (valued (g.x v.name) b).at ρ = (b.at ρ).map (fun _ => g.x v.name (b.dims.map ρ)) := by
      intro ρ
      simp only [valued, Arr.at]
    have a2 : ∀ ρ, (valued (g'.x v.name) b').at ρ = (b'.at ρ).map (fun _ => g'.x v.name (b.dims.map ρ)) := by
      intro ρ
      simp only [valued, Arr.at, hb.1.1]
    have hnd : b.dims.Nodup := by
      rcases hb.2.1 with hd | hd
      · rw [hd]
        exact Typical.variable_nodup hn
      · rw [hd]
        exact List.nodup_nil
    show Mean T w w' coords coords' .plain _ _
    refine ⟨hb.1.1, hnd, ⟨hb.1.1, fun ρ hρ => ?_⟩, fun ρ hρ ht => ?_, fun hk => by cases hk⟩
    · rw [at_map, at_map, a1, a2, hb.1.2 ρ hρ]
      cases b.at ρ <;> rfl
    · have e : ∀ l ∈ group T coords (ρ "timesteps"), factor w .plain l * val (valued (g.x v.name) b) (Expr.set ρ "timesteps" l) =
          if (b'.at ρ).isSome then w l * g.x v.name (b.dims.map (Expr.set ρ "timesteps" l)) else 0 := by
        intro l hl
        rw [val, a1, at_group h.E.labels hb.1 hρ hl]
        cases b'.at ρ <;> simp [factor]
      rw [List.map_congr_left e, val, a2]
      cases hs : b'.at ρ with
      | none => simp
      | some y =>
        simp only [Option.isSome_some, if_true, Option.map_some, Option.getD_some, factor]
        rcases hb.2.1 with hd | hd
        · have hgood : Good coords' v.foreach ρ := fun d hd' => hρ d (by show d ∈ b.dims; rw [hd]; exact hd')
          rw [hd]
          exact hg.x v hv ρ hgood ht
        · exfalso
          have h1 := hb.1.1
          have h2 := h.E.labels
          obtain ⟨l, hl, hlt⟩ := (h2.steps _).1 ht
          have := at_group h.E.labels hb.1 hρ (l := l) (by simp [group, hl, hlt])
          rw [hs, hd] at this
          cases this
  · intro hm
    obtain ⟨rfl, rfl⟩ := hb.2.2 hm
    exact ⟨fun _ => rfl, fun _ => rfl⟩
  · intro u hu n hnn
    obtain ⟨h1, h2⟩ := hl u hu n hnn
    refine ⟨h1, fun c hc => h2 c ?_⟩
    simp only [State.put] at hc
    rwa [if_neg (Ne.symm (h1 v hv))] at hc

theorem buildExpression_rel (h : States T w w' coords coords' depends s s') (enum : List String → List String)
    (hc : Typical.componentOk T k c = true) (hd : Linear.componentKind depends c = some d) :
    Both (fun a a' => Rel T w w' coords coords' d k a a' ∧ (a.dims = c.foreach ∨ a = scalar none) ∧
        (Typical.empty T c.top = true → a = scalar none ∧ a' = scalar none))
      (buildExpression s.W s.E enum c) (buildExpression s'.W s'.E enum c) := by
  have hQ : Keeps T.names s.W.coords c.foreach (Rel T w w' coords coords' d k) := by
    rw [h.here]
    exact keeps_rel h.E.labels d k (Typical.component_nodup hc)
  refine Typical.build_like h.W h.none h.none' hQ hc enum fun es hp q hq he m m' hm hdm => ?_
  rw [h.here] at hm
  have := setExpression_rel h.E (Linear.among hp hq) he hd hm (hdm ▸ Typical.component_nodup hc)
  rwa [hdm] at this

theorem buildConstraint_mean (h : States T w w' coords coords' depends s s') (enum : List String → List String)
    (hc : Typical.componentOk T .plain c = true) (hd : Linear.componentKind depends c ≠ none) :
    Both (fun a a' => Cells T w w' coords coords' a a' ∧ a.dims.Nodup)
      (buildConstraint s.W s.E enum c) (buildConstraint s'.W s'.E enum c) := by
  have hQ : Keeps T.names s.W.coords c.foreach (Cells T w w' coords coords') := by
    rw [h.here]
    exact keeps_cells h.E.labels _
  have := Typical.build_like h.W h.none h.none' hQ hc enum
    (f := setConstraint s.E) (f' := setConstraint s'.E) fun es hp q hq he m m' hm hdm => by
      rw [h.here] at hm
      have := setConstraint_mean h.E (Linear.among hp hq) he hd hm (hdm ▸ Typical.component_nodup hc)
      rwa [hdm] at this
  refine this.mono fun a a' h => ⟨h.1, ?_⟩
  rcases h.2.1 with h | h
  · rw [h]
    exact Typical.component_nodup hc
  · rw [h]
    exact List.nodup_nil

theorem addGlobal_rel (h : States T w w' coords coords' depends s s') (hg : Means T w w' coords coords' M g g')
    (h0 : Typical.NoOther T g) (hc : Typical.componentOk T (kindOf T c.defn.name) c = true)
    (hn : c.defn.name ∈ T.gone → Typical.empty T c.top = true)
    (hd : Linear.componentKind depends c = some .fixed ∨ Linear.componentKind depends c = some .linear ∧ depends c.defn.name = true) :
    Both (States T w w' coords coords' depends) (addGlobal g s c) (addGlobal g' s' c) := by
  obtain ⟨d, hd, hdn⟩ : ∃ d, Linear.componentKind depends c = some d ∧ (kindIn depends c.defn.name = .fixed → d = .fixed) := by
    rcases hd with hd | ⟨hd, hn⟩
    · exact ⟨_, hd, fun _ => rfl⟩
    · exact ⟨_, hd, fun h => by simp [kindIn, hn] at h⟩
  simp only [addGlobal, hg.enum, hg.default]
  rcases (buildExpression_rel h g.enum hc hd).cases with ⟨y, e1, e2⟩ | ⟨a, a', e1, e2, ha⟩
  · simp only [e1, e2]; exact rfl
  · simp only [e1, e2]
    refine states_put h _ (ha.1.weaken h.E.labels hdn) (fun hs => h0 _ (Typical.kindOf_scaled hs)) fun hm => ?_
    obtain ⟨rfl, rfl⟩ := ha.2.2 (hn hm)
    exact ⟨fun _ => rfl, fun _ => rfl⟩

theorem states_start (hs : Typical.Stands T w w' s s') : States T w w' s.W.coords s'.W.coords depends s s' := by
  have h := Typical.states_start hs
  refine ⟨h.W, ⟨h.E.labels, h.E.here, h.E.there, h.E.isDim, h.E.op, h.E.neg, h.E.truthy, h.E.numbers, h.E.carrier, fun n => ?_⟩,
    h.here, h.there, h.none, h.none'⟩
  cases hk : kindOf T n with
  | plain =>
    have hc := h.E.comp n hk
    generalize s.E.comp n = x at hc ⊢
    generalize s'.E.comp n = y at hc ⊢
    cases hc with
    | none => exact .none
    | some hr =>
      refine .some (rel_like h.E.labels _ ?_)
      rw [hr.1]
      exact ⟨hr.2.1.map _, hr.2.2⟩
  | scaled =>
    have hc := h.E.scaled n hk
    generalize s.E.comp n = x at hc ⊢
    generalize s'.E.comp n = y at hc ⊢
    cases hc with
    | none => exact .none
    | some hr => exact .some (rel_like h.E.labels _ hr)

/-- Problems whose constraints are averages. -/
structure Problems (T : Choice) (w w' : Label → V) (coords coords' : String → List Label) (P P' : Problem V) : Prop where
  constraints : List.Forall₂ (fun a a' => Cells T w w' coords coords' a a' ∧ a.dims.Nodup) P.constraints P'.constraints
  objectives : List.Forall₂ (fun a a' => Mean T w w' coords coords' .plain a a' ∧ a.dims = []) P.objectives P'.objectives

theorem assemble_mean (hM : Typical.Single T M) (hL : Linear.LinearIn depends M) (hs : Typical.Stands T w w' s s') (hl : Limited M s)
    (h0 : Typical.NoOther T g) (hg : Means T w w' s.W.coords s'.W.coords M g g') :
    Both (Problems T w w' s.W.coords s'.W.coords) (assemble g M s) (assemble g' M s') := by
  simp only [assemble]
  rcases (addAll_same (T := fun x x' => States T w w' s.W.coords s'.W.coords depends x x' ∧ Limited M x) (add := addVariable g)
    (add' := addVariable g') M.vars ⟨states_start hs, hl⟩
    fun v hv x x' h => addVariable_rel h.1 hg h.2 hv (hM.vars v hv) (hL.vars v hv)).cases
    with ⟨y, e1, e2⟩ | ⟨s1, s1', e1, e2, h1⟩
  · simp only [e1, e2]; exact rfl
  simp only [e1, e2]
  rcases (addAll_same (T := States T w w' s.W.coords s'.W.coords depends) (add := addGlobal g) (add' := addGlobal g') M.globals h1.1
    fun c hc x x' h => addGlobal_rel h hg h0 (hM.globals c hc).1 (hM.globals c hc).2 (hL.globals c hc)).cases
    with ⟨y, e1, e2⟩ | ⟨s2, s2', e1, e2, h2⟩
  · simp only [e1, e2]; exact rfl
  simp only [e1, e2, hg.enum]
  have hobj : ∀ c ∈ M.objectives, Both (fun a a' => Mean T w w' s.W.coords s'.W.coords .plain a a' ∧ a.dims = [])
      (buildExpression s2.W s2.E g.enum c) (buildExpression s2'.W s2'.E g.enum c) := by
    intro c hc
    obtain ⟨d, hd⟩ := Option.ne_none_iff_exists'.1 (hL.objectives c hc)
    refine (buildExpression_rel h2 g.enum (hM.objectives c hc).1 hd).mono fun a b h => ⟨h.1.mean h2.E.labels, ?_⟩
    rcases h.2.1 with h | h
    · rw [h, (hM.objectives c hc).2]
    · rw [h]
      rfl
  rcases (keepAll_same M.constraints fun c hc => buildConstraint_mean h2 g.enum (hM.constraints c hc) (hL.constraints c hc)).cases
    with ⟨y, e1, e2⟩ | ⟨cs, cs', e1, e2, h3⟩
  · simp only [e1, e2]; exact rfl
  simp only [e1, e2]
  rcases (keepAll_same M.objectives hobj).cases with ⟨y, e1, e2⟩ | ⟨os, os', e1, e2, h4⟩
  · simp only [e1, e2]; exact rfl
  simp only [e1, e2]
  exact ⟨h3, h4⟩

end Average
end Calliope
