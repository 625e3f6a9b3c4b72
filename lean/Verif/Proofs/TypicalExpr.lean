import Verif.Proofs.Typical

/-!
# Expressions of typical steps
-/

namespace Calliope
namespace Typical

open Grid Expr Build BaseMath Assemble
open Rename (Same Good Covers same_scalar)
open Units (Both)

variable {V : Type} [Field V] {T : Choice} {w w' : Label → V} {coords coords' : String → List Label} {E E' : Expr.Env V}

/-- Expressions see a model of typical steps. -/
structure Envs (T : Choice) (w w' : Label → V) (coords coords' : String → List Label) (E E' : Expr.Env V) : Prop where
  labels : Labels T w w' coords coords'
  here : E.coords = coords
  there : E'.coords = coords'
  isDim : E'.isDim = E.isDim
  op : E'.op = E.op
  neg : E'.neg = E.neg
  truthy : E'.truthy = E.truthy
  numbers : Linear.Plain E
  carrier : ∀ n, Option.Rel (fun a a' => Same T.names coords a a' ∧ a.dims.Nodup) (E.carrier n) (E'.carrier n)
  comp : ∀ n, kindOf T n = .plain →
    Option.Rel (fun c c' => c'.default = c.default ∧ Same T.names coords c.arr c'.arr ∧ c.arr.dims.Nodup) (E.comp n) (E'.comp n)
  scaled : ∀ n, kindOf T n = .scaled →
    Option.Rel (fun c c' => Scaled T w w' coords coords' (map (fill c.default) c.arr) (map (fill c'.default) c'.arr))
      (E.comp n) (E'.comp n)

theorem like_comp (h : Envs T w w' coords coords' E E') (n : String) :
    Both (Like T w w' coords coords' (kindOf T n)) (compArr E n) (compArr E' n) := by
  simp only [compArr, h.isDim]
  cases hk : kindOf T n with
  | plain =>
    have hc := h.comp n hk
    generalize E.comp n = x at hc ⊢
    generalize E'.comp n = y at hc ⊢
    cases hc with
    | none =>
      simp only
      split
      · exact like_scalar_none (T := T) (w := w) (w' := w') (coords := coords) (coords' := coords') .plain
      · exact rfl
    | some hr =>
      simp only [hr.1]
      exact ⟨hr.2.1.map _, hr.2.2⟩
  | scaled =>
    have hc := h.scaled n hk
    generalize E.comp n = x at hc ⊢
    generalize E'.comp n = y at hc ⊢
    cases hc with
    | none =>
      simp only
      split
      · exact like_scalar_none (T := T) (w := w) (w' := w') (coords := coords) (coords' := coords') .scaled
      · exact rfl
    | some hr => exact hr

theorem op_both (hp : Linear.Plain E) {o : Arith.Op} (ho : o = .plus ∨ o = .minus) :
    (∀ c x y, E.op o (Option.map (c * ·) x) (Option.map (c * ·) y) = (E.op o x y).map (c * ·)) ∧
    (∀ x y, (x = none ∨ x = some 0) → (y = none ∨ y = some 0) → E.op o x y = none ∨ E.op o x y = some 0) := by
  have hpow : o ≠ .pow := by rcases ho with rfl | rfl <;> simp
  constructor
  · intro c x y
    cases x with
    | none => simp [hp.left o _ hpow]
    | some x =>
      cases y with
      | none => simp [hp.right o _ hpow]
      | some y => rcases ho with rfl | rfl <;> simp [hp.plus, hp.minus, mul_add, mul_sub]
  · rintro x y (rfl | rfl) hy
    · exact .inl (hp.left o _ hpow)
    · rcases hy with rfl | rfl
      · exact .inl (hp.right o _ hpow)
      · right
        rcases ho with rfl | rfl <;> simp [hp.plus, hp.minus]

theorem times_right (hp : Linear.Plain E) (y : Option V) : Through (E.op .times y) := by
  have hpow : Arith.Op.times ≠ .pow := by simp
  cases y with
  | none =>
    refine ⟨fun c x => ?_, fun x _ => .inl (hp.left _ _ hpow)⟩
    rw [hp.left _ _ hpow, hp.left _ _ hpow]
    rfl
  | some y =>
    refine ⟨fun c x => ?_, fun x hx => ?_⟩
    · cases x with
      | none => simp [hp.right _ _ hpow]
      | some x =>
        simp only [Option.map_some, hp.times, Option.some.injEq]
        ring
    · rcases hx with rfl | rfl
      · exact .inl (hp.right _ _ hpow)
      · exact .inr (by simp [hp.times])

theorem times_left (hp : Linear.Plain E) (y : Option V) : Through (fun x => E.op .times x y) := by
  have hpow : Arith.Op.times ≠ .pow := by simp
  cases y with
  | none =>
    refine ⟨fun c x => ?_, fun x _ => .inl (hp.right _ _ hpow)⟩
    simp only [hp.right _ _ hpow]
    rfl
  | some y =>
    refine ⟨fun c x => ?_, fun x hx => ?_⟩
    · cases x with
      | none => simp [hp.left _ _ hpow]
      | some x =>
        simp only [Option.map_some, hp.times, Option.some.injEq]
        ring
    · rcases hx with rfl | rfl
      · exact .inl (hp.left _ _ hpow)
      · exact .inr (by simp [hp.times])

theorem div_left (hp : Linear.Plain E) (y : Option V) : Through (fun x => E.op .div x y) := by
  have hpow : Arith.Op.div ≠ .pow := by simp
  cases y with
  | none =>
    refine ⟨fun c x => ?_, fun x _ => .inl (hp.right _ _ hpow)⟩
    simp only [hp.right _ _ hpow]
    rfl
  | some y =>
    by_cases h0 : y = 0
    · subst h0
      refine ⟨fun c x => ?_, fun x hx => ?_⟩
      · cases x with
        | none => simp [hp.left _ _ hpow]
        | some x => simp [hp.divZero]
      · rcases hx with rfl | rfl
        · exact .inl (hp.left _ _ hpow)
        · exact .inl (hp.divZero _)
    · refine ⟨fun c x => ?_, fun x hx => ?_⟩
      · cases x with
        | none => simp [hp.left _ _ hpow]
        | some x =>
          simp only [Option.map_some, hp.div _ _ h0, Option.some.injEq]
          ring
      · rcases hx with rfl | rfl
        · exact .inl (hp.left _ _ hpow)
        · exact .inr (by simp [hp.div _ _ h0])

theorem like_op (hl : Labels T w w' coords coords') (hp : Linear.Plain E) {o : Arith.Op} {j k m : Kind}
    (hm : combine o j k = some m) {a a' b b' : Arr (Option V)} (ha : Like T w w' coords coords' j a a')
    (hb : Like T w w' coords coords' k b b') : Like T w w' coords coords' m (zip (E.op o) a b) (zip (E.op o) a' b') := by
  have plain : j = .plain → k = .plain → Like T w w' coords coords' .plain (zip (E.op o) a b) (zip (E.op o) a' b') := by
    rintro rfl rfl
    exact ⟨ha.1.zip hb.1 _, joinDims_nodup ha.2 hb.2⟩
  have both : (o = .plus ∨ o = .minus) → combine o j k = some m → Like T w w' coords coords' m (zip (E.op o) a b) (zip (E.op o) a' b') := by
    intro ho hm
    have : j = k ∧ j = m := by
      rcases ho with rfl | rfl
      all_goals
        simp only [combine] at hm
        split at hm
        · exact ⟨by assumption, by simpa using hm⟩
        · cases hm
    obtain ⟨rfl, rfl⟩ := this
    cases j with
    | plain => exact plain rfl rfl
    | scaled =>
      obtain ⟨h1, h2⟩ := op_both hp ho
      exact Scaled.zip ha hb h1 h2
  cases o with
  | plus => exact both (.inl rfl) hm
  | minus => exact both (.inr rfl) hm
  | times =>
    cases j with
    | plain =>
      simp only [combine, Option.some.injEq] at hm
      subst hm
      cases k with
      | plain => exact plain rfl rfl
      | scaled => exact Scaled.plainZip hl hb ha.1 ha.2 (times_right hp)
    | scaled =>
      cases k with
      | plain =>
        simp only [combine, Option.some.injEq] at hm
        subst hm
        exact Scaled.zipPlain hl ha hb.1 hb.2 (times_left hp)
      | scaled => cases hm
  | div =>
    cases k with
    | scaled => cases j <;> cases hm
    | plain =>
      cases j with
      | plain =>
        cases hm
        exact plain rfl rfl
      | scaled =>
        cases hm
        exact Scaled.zipPlain hl ha hb.1 hb.2 (div_left hp)
  | pow =>
    cases j <;> cases k <;> cases hm
    exact plain rfl rfl

mutual
theorem evalEx_like (h : Envs T w w' coords coords' E E') (slices : String → Option SliceDef) {kinds : String → Option Kind}
    {sub sub' : Arr Bool → String → Res V}
    (hsub : ∀ m m' n j, Same T.names coords m m' → m.dims.Nodup → kinds n = some j →
      Both (Like T w w' coords coords' j) (sub m n) (sub' m' n)) :
    ∀ (t : Ex V) {m m' : Arr Bool} {k : Kind}, Same T.names coords m m' → m.dims.Nodup → kind T kinds t = some k →
      Both (Like T w w' coords coords' k) (evalEx E slices sub m t) (evalEx E' slices sub' m' t)
  | .num v, _, _, _, _, _, hk => by
    simp only [kind, Option.some.injEq] at hk
    subst hk
    simp only [evalEx]
    exact ⟨same_scalar _, List.nodup_nil⟩
  | .comp n, _, _, _, _, _, hk => by
    simp only [kind, Option.some.injEq] at hk
    subst hk
    simp only [evalEx]
    exact like_comp h n
  | .sub n, _, _, _, hm, hn, hk => by
    simp only [kind] at hk
    simp only [evalEx]
    exact hsub _ _ n _ hm hn hk
  | .sign o t, _, _, k, hm, hn, hk => by
    simp only [kind] at hk
    simp only [evalEx]
    rcases (evalEx_like h slices hsub t hm hn hk).cases with ⟨e, e1, e2⟩ | ⟨a, a', e1, e2, ha⟩
    · simp only [e1, e2]; exact rfl
    · simp only [e1, e2, h.neg]
      split
      · cases k with
        | plain => exact ⟨ha.1.map _, ha.2⟩
        | scaled =>
          refine Scaled.map ha ⟨fun c x => ?_, fun x hx => ?_⟩
          · cases x <;> simp [h.numbers.neg, h.numbers.negNone]
          · rcases hx with rfl | rfl <;> simp [h.numbers.neg, h.numbers.negNone]
      · exact ha
  | .chain t r, _, _, _, hm, hn, hk => by
    simp only [kind, Option.bind_eq_some_iff] at hk
    obtain ⟨j, hj, hk⟩ := hk
    simp only [evalEx]
    rcases (evalEx_like h slices hsub t hm hn hj).cases with ⟨e, e1, e2⟩ | ⟨a, a', e1, e2, ha⟩
    · simp only [e1, e2]; exact rfl
    · simp only [e1, e2]
      exact evalRest_like h slices hsub r hm hn (like_mask h.labels ha hm hn) hk
  | .sum t over, _, _, _, hm, hn, hk => by
    simp only [kind, Option.bind_eq_some_iff] at hk
    obtain ⟨j, hj, hk⟩ := hk
    simp only [evalEx]
    rcases (evalEx_like h slices hsub t hm hn hj).cases with ⟨e, e1, e2⟩ | ⟨a, a', e1, e2, ha⟩
    · simp only [e1, e2]; exact rfl
    · simp only [e1, e2, h.here, h.there]
      exact like_sum h.labels ha hk
  | .reduceCarrier t flow, _, _, k, hm, hn, hk => by
    simp only [kind] at hk
    simp only [evalEx]
    rcases (evalEx_like h slices hsub t hm hn hk).cases with ⟨e, e1, e2⟩ | ⟨a, a', e1, e2, ha⟩
    · simp only [e1, e2]; exact rfl
    · simp only [e1, e2, h.here, h.there]
      have hc := h.carrier flow
      generalize E.carrier flow = x at hc ⊢
      generalize E'.carrier flow = y at hc ⊢
      cases hc with
      | none => exact rfl
      | some hc =>
        refine like_sum h.labels (like_mask h.labels ha hc.1 hc.2) ?_
        cases k <;> rfl
  | .cond t c, _, _, k, hm, hn, hk => by
    simp only [kind] at hk
    split at hk
    · rename_i hc
      simp only [evalEx]
      rcases (evalEx_like h slices hsub t hm hn hk).cases with ⟨e, e1, e2⟩ | ⟨a, a', e1, e2, ha⟩
      · simp only [e1, e2]; exact rfl
      · simp only [e1, e2]
        rcases (evalEx_like h slices hsub c hm hn hc).cases with ⟨e, e1, e2⟩ | ⟨b, b', e1, e2, hb⟩
        · simp only [e1, e2]; exact rfl
        · simp only [e1, e2]
          have hh : holds E' = holds E := by
            funext x
            cases x with
            | none => rfl
            | some v => simp only [holds, h.truthy]
          simp only [Both, condArr, hh]
          cases k with
          | plain => exact ⟨ha.1.zip hb.1 _, joinDims_nodup ha.2 hb.2⟩
          | scaled =>
            refine Scaled.zipPlain h.labels ha hb.1 hb.2 fun y => ?_
            rcases Bool.eq_false_or_eq_true (holds E y) with hy | hy <;> simp [Through, hy]
    · cases hk
  | .sliced _ _, _, _, _, _, _, hk => by simp only [kind] at hk; cases hk
  | .roll _ _, _, _, _, _, _, hk => by simp only [kind] at hk; cases hk
  | .groupSum _ _ _, _, _, _, _, _, hk => by simp only [kind] at hk; cases hk
  | .groupDatetime _ _ _, _, _, _, _, _, hk => by simp only [kind] at hk; cases hk
  | .sumNextN _ _ _, _, _, _, _, _, hk => by simp only [kind] at hk; cases hk
  | .select _ _, _, _, _, _, _, hk => by simp only [kind] at hk; cases hk
theorem evalRest_like (h : Envs T w w' coords coords' E E') (slices : String → Option SliceDef) {kinds : String → Option Kind}
    {sub sub' : Arr Bool → String → Res V}
    (hsub : ∀ m m' n j, Same T.names coords m m' → m.dims.Nodup → kinds n = some j →
      Both (Like T w w' coords coords' j) (sub m n) (sub' m' n)) :
    ∀ (r : ExRest V) {m m' : Arr Bool} {a a' : Arr (Option V)} {j k : Kind}, Same T.names coords m m' → m.dims.Nodup →
      Like T w w' coords coords' j a a' → kindRest T kinds j r = some k →
      Both (Like T w w' coords coords' k) (evalRest E slices sub m a r) (evalRest E' slices sub' m' a' r)
  | .one o t, _, _, _, _, _, _, hm, hn, ha, hk => by
    simp only [kindRest, Option.bind_eq_some_iff] at hk
    obtain ⟨j, hj, hk⟩ := hk
    simp only [evalRest]
    rcases (evalEx_like h slices hsub t hm hn hj).cases with ⟨e, e1, e2⟩ | ⟨b, b', e1, e2, hb⟩
    · simp only [e1, e2]; exact rfl
    · simp only [e1, e2, h.op]
      exact like_op h.labels h.numbers hk ha (like_mask h.labels hb hm hn)
  | .more o t r, _, _, _, _, _, _, hm, hn, ha, hk => by
    simp only [kindRest, Option.bind_eq_some_iff] at hk
    obtain ⟨i, ⟨j, hj, hi⟩, hk⟩ := hk
    simp only [evalRest]
    rcases (evalEx_like h slices hsub t hm hn hj).cases with ⟨e, e1, e2⟩ | ⟨b, b', e1, e2, hb⟩
    · simp only [e1, e2]; exact rfl
    · simp only [e1, e2, h.op]
      exact evalRest_like h slices hsub r hm hn (like_op h.labels h.numbers hi ha (like_mask h.labels hb hm hn)) hk
end

variable {slices : String → Option SliceDef} {kinds : String → Option Kind} {subs : String → Option (Ex V)} {m m' : Arr Bool}

theorem evalSide_like (h : Envs T w w' coords coords' E E')
    (hs : ∀ n t j, subs n = some t → kinds n = some j → kind T (fun _ => none) t = some j)
    (hm : Same T.names coords m m') (hn : m.dims.Nodup) {t : Ex V} {k : Kind} (hk : kind T kinds t = some k) :
    Both (Like T w w' coords coords' k) (evalSide E slices subs m t) (evalSide E' slices subs m' t) := by
  refine evalEx_like h slices (kinds := kinds) (fun m m' n j hm hn hj => ?_) t hm hn hk
  simp only [evalSub]
  cases hx : subs n with
  | none => exact rfl
  | some u =>
    exact evalEx_like h slices (kinds := fun _ => none) (sub := fun _ _ => .error .keyError) (sub' := fun _ _ => .error .keyError)
      (fun _ _ _ _ _ _ h => by cases h) u hm hn (hs n u j hx hj)

theorem present_none {a a' : Arr (Option V)} {k : Kind} (hl : Labels T w w' coords coords')
    (ha : Like T w w' coords coords' k a a') (hm : Same T.names coords m m') :
    Same T.names coords (zip (fun v b => v.isNone && b) a m) (zip (fun v b => v.isNone && b) a' m') := by
  have hp := ((ha.present hl).zip hm (fun x b => !x && b))
  refine ⟨hp.1, fun ρ hρ => ?_⟩
  have := hp.2 ρ hρ
  simp only [at_zip, at_map, Option.not_isSome] at this ⊢
  exact this

theorem checkWhere_like (h : Envs T w w' coords coords' E E') (hm : Same T.names coords m m') {a a' : Arr (Option V)} {k : Kind}
    (ha : Like T w w' coords coords' k a a') : checkWhere E' m' a' = checkWhere E m a := by
  simp only [checkWhere, ha.dims.1, hm.1, h.here, h.there, (present_none h.labels ha hm).anyCell h.labels.covers]

theorem evalExpression_like (h : Envs T w w' coords coords' E E')
    (hs : ∀ n t j, subs n = some t → kinds n = some j → kind T (fun _ => none) t = some j)
    (hm : Same T.names coords m m') (hn : m.dims.Nodup) {t : Ex V} {k : Kind} (hk : kind T kinds t = some k) :
    Both (Like T w w' coords coords' k) (evalExpression E slices subs m t) (evalExpression E' slices subs m' t) := by
  simp only [evalExpression]
  rcases (evalSide_like h hs hm hn hk (slices := slices)).cases with ⟨e, e1, e2⟩ | ⟨a, a', e1, e2, ha⟩
  · simp only [e1, e2]; exact rfl
  · simp only [e1, e2, checkWhere_like h hm ha]
    cases checkWhere E m a with
    | error e => exact rfl
    | ok _ => exact ha

theorem evalComparison_like (h : Envs T w w' coords coords' E E')
    (hs : ∀ n t j, subs n = some t → kinds n = some j → kind T (fun _ => none) t = some j)
    (hm : Same T.names coords m m') (hn : m.dims.Nodup) {l r : Ex V} (hl : kind T kinds l = some .plain)
    (hr : kind T kinds r = some .plain) :
    Both (Same T.names coords) (evalComparison E slices subs m l r) (evalComparison E' slices subs m' l r) := by
  simp only [evalComparison]
  rcases (evalSide_like h hs hm hn hl (slices := slices)).cases with ⟨e, e1, e2⟩ | ⟨a, a', e1, e2, ha⟩
  · simp only [e1, e2]; exact rfl
  simp only [e1, e2]
  rcases (evalSide_like h hs hm hn hr (slices := slices)).cases with ⟨e, e1, e2⟩ | ⟨b, b', e1, e2, hb⟩
  · simp only [e1, e2]; exact rfl
  replace ha := ha.1
  replace hb := hb.1
  simp only [e1, e2, ha.1, hb.1, hm.1]
  split
  · rename_i h1
    split
    · rename_i h2
      simp only [List.all_eq_true, List.contains_eq_mem, decide_eq_true_eq] at h1 h2
      refine ⟨rfl, fun ρ hρ => ?_⟩
      simp only [Arr.at, pick_map _ _ _ h1, pick_map _ _ _ h2]
      have e0 := hm.2 ρ hρ
      have e1 := ha.2 ρ fun d hd => hρ d (h1 d hd)
      have e2 := hb.2 ρ fun d hd => hρ d (h2 d hd)
      simp only [Arr.at, hm.1, ha.1, hb.1] at e0 e1 e2
      rw [e0, e1, e2]
    · exact rfl
  · exact rfl

end Typical
end Calliope
