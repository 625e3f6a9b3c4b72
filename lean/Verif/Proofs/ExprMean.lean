import Verif.Proofs.Expr

namespace Calliope
namespace Expr

open Grid

variable {V : Type} [AddCommMonoid V]

mutual
theorem eval_inline (E : Env V) (slices : String → Option SliceDef) (subs : String → Option (Ex V)) :
    ∀ (w : Arr Bool) (t : Ex V), evalEx E slices (evalSub E slices subs) w t =
      evalEx E slices (fun _ _ => .error .keyError) w (inline subs t)
  | w, .num v => by simp only [inline, evalEx]
  | w, .comp n => by simp only [inline, evalEx]
  | w, .sliced n ss => by simp only [inline, evalEx]
  | w, .sub n => by
      simp only [inline, evalEx, evalSub]
      cases subs n with
      | none => simp only [Option.getD_none, evalEx]
      | some t => simp only [Option.getD_some]
  | w, .sign o t => by simp only [inline, evalEx, eval_inline E slices subs w t]
  | w, .chain t r => by
      simp only [inline, evalEx, eval_inline E slices subs w t]
      cases evalEx E slices (fun _ _ => .error .keyError) w (inline subs t) with
      | error x => rfl
      | ok a => exact evalRest_inline E slices subs w _ r
  | w, .sum t over => by simp only [inline, evalEx, eval_inline E slices subs w t]
  | w, .reduceCarrier t flow => by simp only [inline, evalEx, eval_inline E slices subs w t]
  | w, .cond t c => by
      simp only [inline, evalEx, eval_inline E slices subs w t, eval_inline E slices subs w c]
  | w, .roll t shifts => by simp only [inline, evalEx, eval_inline E slices subs trueArr t]
  | w, .groupSum t g d => by simp only [inline, evalEx, eval_inline E slices subs trueArr t]
  | w, .groupDatetime t o g => by simp only [inline, evalEx, eval_inline E slices subs trueArr t]
  | w, .sumNextN t o n => by simp only [inline, evalEx, eval_inline E slices subs w t]
  | w, .select t ls => by simp only [inline, evalEx, eval_inline E slices subs w t]
theorem evalRest_inline (E : Env V) (slices : String → Option SliceDef)
    (subs : String → Option (Ex V)) :
    ∀ (w : Arr Bool) (acc : Arr (Option V)) (r : ExRest V),
      evalRest E slices (evalSub E slices subs) w acc r =
      evalRest E slices (fun _ _ => .error .keyError) w acc (inlineRest subs r)
  | w, acc, .one o t => by simp only [inlineRest, evalRest, eval_inline E slices subs w t]
  | w, acc, .more o t r => by
      simp only [inlineRest, evalRest, eval_inline E slices subs w t]
      cases evalEx E slices (fun _ _ => .error .keyError) w (inline subs t) with
      | error x => rfl
      | ok a => exact evalRest_inline E slices subs w _ r
end

omit [AddCommMonoid V] in
theorem agrees_comp {E : Env V} (hE : WellFormed E) {n : String} {a : Arr (Option V)}
    (h : compArr E n = .ok a) : Agrees a (match E.comp n with
      | some c => ⟨c.arr.dims, fun ρ => (c.arr.at ρ).or c.default⟩
      | none => ⟨[], fun _ => none⟩) := by
  unfold compArr at h
  split at h
  · rename_i c hc
    cases h
    rw [hc]
    refine ⟨hE.comp n c hc, fun d => Iff.rfl, fun ρ => ?_⟩
    rw [at_map]
    simp only []
    cases c.arr.at ρ <;> rfl
  · rename_i hc
    rw [hc]
    split at h
    · cases h
      exact ⟨List.nodup_nil, fun d => Iff.rfl, fun ρ => rfl⟩
    · cases h

omit [AddCommMonoid V] in
theorem lookups_fst (E : Env V) : ∀ (ls : List (String × String)) (gs : List (String × Arr (Option Label))),
    lookups E ls = .ok gs → gs.map Prod.fst = ls.map Prod.fst
  | [], gs, h => by simp only [lookups, Except.ok.injEq] at h; subst h; rfl
  | (d, n) :: rest, gs, h => by
      simp only [lookups] at h
      split at h
      · cases h
      · split at h
        · cases h
        · rename_i gs' hgs
          cases h
          simp [lookups_fst E rest gs' hgs]

omit [AddCommMonoid V] in
theorem lookups_filterMap (E : Env V) : ∀ (ls : List (String × String))
    (gs : List (String × Arr (Option Label))), lookups E ls = .ok gs →
    ls.filterMap (fun p => (E.lookup p.2).map (fun g => (p.1, g))) = gs
  | [], gs, h => by simp only [lookups, Except.ok.injEq] at h; subst h; rfl
  | (d, n) :: rest, gs, h => by
      simp only [lookups] at h
      split at h
      · cases h
      · rename_i g hg
        split at h
        · cases h
        · rename_i gs' hgs
          cases h
          rw [List.filterMap_cons_some (b := (d, g)) (by simp [hg]), lookups_filterMap E rest gs' hgs]

omit [AddCommMonoid V] in
theorem lookups_iff (E : Env V) : ∀ (ls : List (String × String))
    (gs : List (String × Arr (Option Label))), lookups E ls = .ok gs ↔
    List.Forall₂ (fun p q => q.1 = p.1 ∧ E.lookup p.2 = some q.2) ls gs
  | [], gs => by simp [lookups, eq_comm]
  | (d, n) :: rest, gs => by
      simp only [lookups]
      rw [List.forall₂_cons_left_iff]
      constructor
      · intro h
        split at h
        · cases h
        · rename_i g hg
          split at h
          · cases h
          · rename_i gs' hgs
            cases h
            exact ⟨(d, g), gs', ⟨rfl, hg⟩, (lookups_iff E rest gs').1 hgs, rfl⟩
      · rintro ⟨⟨d', g⟩, gs', ⟨hd, hg⟩, hr, rfl⟩
        simp only [] at hd hg
        subst hd
        rw [hg, (lookups_iff E rest gs').2 hr]

theorem trueArr_at : trueArr.at = fun _ => true := rfl

mutual
theorem eval_mean {E : Env V} (hE : WellFormed E) {slices : String → Option SliceDef} :
    ∀ {w : Arr Bool} (_ : w.dims.Nodup) {t : Ex V} (_ : Ok t) {a : Arr (Option V)}
      (_ : evalEx E slices (fun _ _ => .error .keyError) w t = .ok a),
      Agrees a (mean E slices w.at w.dims t)
  | w, hw, .num v, _, a, h => by
      simp only [evalEx, Except.ok.injEq] at h
      subst h
      exact ⟨List.nodup_nil, fun d => Iff.rfl, fun ρ => rfl⟩
  | w, hw, .comp n, _, a, h => by
      simp only [evalEx] at h
      simp only [mean]
      exact agrees_comp hE h
  | w, hw, .sliced n ss, _, a, h => by
      simp only [evalEx] at h
      split at h
      · cases h
      · rename_i b hb
        have h1 := agrees_comp hE hb
        have h2 := agrees_selAll hE h1 h
        simp only [mean]
        cases hc : E.comp n with
        | none =>
          rw [hc] at h1 h2
          have hnil : ss = [] := by
            cases ss with
            | nil => rfl
            | cons p ps => exact absurd ((h1.2.1 _).1 (selAll_dims h p (List.mem_cons_self ..))) (by simp)
          subst hnil
          exact h2
        | some c =>
          rw [hc] at h2
          exact h2
  | w, hw, .sub n, _, a, h => by
      simp only [evalEx] at h
      cases h
  | w, hw, .sign o t, ht, a, h => by
      simp only [Ok] at ht
      simp only [evalEx] at h
      split at h
      · cases h
      · rename_i b hb
        have ih := eval_mean hE hw ht hb
        cases h
        simp only [mean]
        by_cases ho : o = .minus
        · simp only [ho, if_true]
          exact agrees_map E.neg ih
        · simp only [ho, if_false]
          exact ih
  | w, hw, .chain t r, ht, a, h => by
      simp only [Ok] at ht
      simp only [evalEx] at h
      split at h
      · cases h
      · rename_i b hb
        have ih := agrees_mask hw (eval_mean hE hw ht.1 hb)
        simp only [mean]
        exact evalRest_mean hE hw ih ht.2 h
  | w, hw, .sum t over, ht, a, h => by
      simp only [Ok] at ht
      simp only [evalEx] at h
      split at h
      · cases h
      · rename_i b hb
        cases h
        exact agrees_sum over (eval_mean hE hw ht hb)
  | w, hw, .reduceCarrier t flow, ht, a, h => by
      simp only [Ok] at ht
      simp only [evalEx] at h
      split at h
      · cases h
      · rename_i b hb
        split at h
        · cases h
        · rename_i m hm
          cases h
          simp only [mean, hm]
          exact agrees_sum _ (agrees_mask (hE.carrier _ _ hm) (eval_mean hE hw ht hb))
  | w, hw, .cond t c, ht, a, h => by
      simp only [Ok] at ht
      simp only [evalEx] at h
      split at h
      · cases h
      · rename_i b hb
        split at h
        · cases h
        · rename_i b' hb'
          cases h
          have := agrees_zip (fun v m => if holds E m then v else none) (eval_mean hE hw ht.1 hb) (eval_mean hE hw ht.2 hb')
          refine ⟨this.1, this.2.1, ?_⟩
          intro ρ
          unfold condArr
          rw [this.2.2]
          simp only [mean]
          cases (mean E slices w.at w.dims c).val ρ <;> rfl
  | w, hw, .roll t shifts, ht, a, h => by
      simp only [Ok] at ht
      simp only [evalEx] at h
      split at h
      · cases h
      · rename_i b hb
        exact agrees_rollAll shifts (eval_mean hE (w := trueArr) List.nodup_nil ht hb) h
  | w, hw, .groupSum t g d, ht, a, h => by
      simp only [Ok] at ht
      simp only [evalEx] at h
      split at h
      · cases h
      · rename_i b hb
        split at h
        · cases h
        · rename_i k hk
          simp only [mean, hk]
          exact agrees_group (hE.lookup _ _ hk) (eval_mean hE (w := trueArr) List.nodup_nil ht hb) h
  | w, hw, .groupDatetime t o g, ht, a, h => by
      simp only [Ok] at ht
      simp only [evalEx] at h
      split at h
      · cases h
      · rename_i b hb
        simp only [mean]
        exact agrees_group (by simp) (eval_mean hE (w := trueArr) List.nodup_nil ht hb) h
  | w, hw, .sumNextN t o n, ht, a, h => by
      simp only [Ok] at ht
      simp only [evalEx] at h
      split at h
      · cases h
      · rename_i b hb
        exact agrees_next ht.2 (eval_mean hE hw ht.1 hb) h
  | w, hw, .select t ls, ht, a, h => by
      simp only [Ok] at ht
      simp only [evalEx] at h
      split at h
      · cases h
      · rename_i b hb
        split at h
        · cases h
        · rename_i gs hgs
          simp only [mean, lookups_filterMap E ls gs hgs]
          refine agrees_select ?_ (eval_mean hE hw ht.1 hb) h
          rw [lookups_fst E ls gs hgs]
          exact ht.2
theorem evalRest_mean {E : Env V} (hE : WellFormed E) {slices : String → Option SliceDef} :
    ∀ {w : Arr Bool} (_ : w.dims.Nodup) {acc : Arr (Option V)} {x : Fn V} (_ : Agrees acc x)
      {r : ExRest V} (_ : OkRest r) {a : Arr (Option V)}
      (_ : evalRest E slices (fun _ _ => .error .keyError) w acc r = .ok a),
      Agrees a (meanRest E slices w.at w.dims x r)
  | w, hw, acc, x, hx, .one o t, ht, a, h => by
      simp only [OkRest] at ht
      simp only [evalRest] at h
      split at h
      · cases h
      · rename_i b hb
        cases h
        simp only [meanRest]
        exact agrees_zip (E.op o) hx (agrees_mask hw (eval_mean hE hw ht hb))
  | w, hw, acc, x, hx, .more o t r, ht, a, h => by
      simp only [OkRest] at ht
      simp only [evalRest] at h
      split at h
      · cases h
      · rename_i b hb
        simp only [meanRest]
        exact evalRest_mean hE hw
          (agrees_zip (E.op o) hx (agrees_mask hw (eval_mean hE hw ht.1 hb))) ht.2 h
end

end Expr
end Calliope
