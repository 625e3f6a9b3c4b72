import Verif.Spec.Postprocess
import Verif.Proofs.Supply
import Verif.Proofs.Costs

/-!
Expressions with a scaled amount, and sums.
-/

namespace Calliope
namespace BaseMath

open Grid Infix Expr Expand Build Where

variable {V : Type}

theorem scaleFor_self [Field V] {W : Where.Env} {E : Expr.Env V} {unit : String} {area cap : Point → V} (ρ : Point) :
    scaleFor W E unit area cap ρ ρ = scaleOf W E unit area cap ρ := by
  unfold scaleFor scaleOf
  split
  · rfl
  · split <;> rfl

theorem truth_above_zero {W : Where.Env} (n : String) (ρ : Point) :
    Truth W ρ (.atom (.cmp (.result n) .gt (.num 0))) ↔ Less (.num 0) (asNumber (numberOf (W.number n) ρ)) := by
  simp only [Truth, LeafTruth, Compares, lhsValue, rhsValue, asNumber]

theorem truth_total {W : Where.Env} (n : String) (over : List String) (ρ : Point) :
    Truth W ρ (.atom (.cmp (.total n over) .gt (.num 0))) ↔ Less (.num 0) (asNumber (numberOf (W.sums n over) ρ)) := by
  simp only [Truth, LeafTruth, Compares, lhsValue, rhsValue, asNumber]

theorem truth_above0 {W : Where.Env} (n : String) (ρ : Point) :
    Truth W ρ (.atom (.cmp (.input n) .gt (.num 0))) ↔ Less (.num 0) (asNumber (valueOf (W.input n) ρ)) := by
  simp only [Truth, LeafTruth, Compares, lhsValue, rhsValue, asNumber]

theorem truth_unlimited {W : Where.Env} (n : String) (ρ : Point) :
    Truth W ρ (.atom (.cmp (.input n) .eq .inf)) ↔ valueOf (W.input n) ρ = .posInf := by
  simp only [Truth, LeafTruth, Compares, lhsValue, rhsValue, asNumber, Where.Same]
  cases valueOf (W.input n) ρ <;> simp [asNumber]

section
variable [Field V] {W : Where.Env} {E : Expr.Env V} {pw : V → V → V} {enum : List String → List String}
  {b : Arr (Option V)} {ρ : Point}

/-- Where the unit is known, one of the cases of a scaler applies. -/
theorem scaler_pick (S : Setting W E pw) (hρ : Valid W ρ) {unit : String} (hk : UnitKnown W unit ρ)
    {area cap : Point → V} (hA : Is E "area_use" [] area) (hC : Is E "flow_cap" ["nodes", "techs", "carriers"] cap) :
    ∃ v u, (v, u) ∈ scaler unit ∧ Truth W ρ v ∧ Ok u ∧ (∀ wd, Apart wd u) ∧ sliceRefs u = [] ∧
      (∀ sl, Den E sl u [] (scaleFor W E unit area cap ρ)) ∧
      (∀ sl d, Lacks E "area_use" d → Lacks E "flow_cap" d → d ∉ (mean E sl (fun _ => true) [] u).dims) := by
  unfold scaleFor
  have lack : ∀ (n d : String) (sl : String → Option SliceDef), Lacks E n d →
      d ∉ (mean E sl (fun _ => true) [] (.comp n : Ex V)).dims := by
    intro n d sl h hm
    simp only [mean] at hm
    cases hc : E.comp n with
    | none => rw [hc] at hm; simp at hm
    | some c => rw [hc] at hm; exact h c hc hm
  by_cases h1 : Text W unit "per_area" ρ
  · rw [if_pos h1]
    exact ⟨_, _, List.mem_cons_self .., (truth_isText _ _ _).2 h1, by simp [Ok], by simp [Apart], by simp [sliceRefs],
      fun sl => den_comp hA, fun sl d h _ => lack _ _ _ h⟩
  · rw [if_neg h1]
    by_cases h2 : Text W unit "per_cap" ρ
    · rw [if_pos h2]
      refine ⟨_, _, List.mem_cons_of_mem _ (List.mem_cons_self ..), (truth_isText _ _ _).2 h2,
        by simp [Ok], by simp [Apart, NoOps], by simp [sliceRefs], ?_, ?_⟩
      · intro sl
        exact den_sum (es := []) (den_comp hC) (by simp) (coords_of_valid S.coords hρ _) (by simp)
      · intro sl d _ h hm
        simp only [mean, Fn.sumOver, List.mem_filter] at hm
        exact lack "flow_cap" d sl h (by simpa only [mean] using hm.1)
    · rw [if_neg h2]
      have h3 : Text W unit "absolute" ρ := by
        rcases hk with h | h | h
        · exact absurd h h1
        · exact absurd h h2
        · exact h
      refine ⟨_, _, by simp, (truth_isText _ _ _).2 h3, by simp [Ok], by simp [Apart], by simp [sliceRefs],
        fun sl => den_num 1, fun sl d _ _ hm => ?_⟩
      simp [mean] at hm

/-- What a global expression with a scaler says at an item. -/
theorem scaled_expr (S : Setting W E pw) (henum : Traverses enum) {c : Component V} {s unit : String} {t : Ex V}
    (hn : c.foreach.Nodup) (hres : resolved c.defn = true) (hb : buildExpression W E enum c = .ok b)
    (heq : c.defn.equations = [(always, .arith t)])
    (hsubs : c.defn.subs = [(s, scaler unit)]) (hloc : LocalCases W c) (hρ : Valid W ρ)
    (hs : s ∈ findSubs (.arith t) ∧ ∀ m ∈ findSubs (.arith t), m = s) (hsl : bodySlices (.arith t) = [])
    {u : Ex V} {v : Cond} (hv : (v, u) ∈ scaler unit) (htr : Truth W ρ v) (hu : sliceRefs u = [])
    (hok : Ok (Expr.inline (fun n => [(s, u)].lookup n) t))
    (hap : Apart c.foreach (Expr.inline (fun n => [(s, u)].lookup n) t)) :
    (b.at ρ ≠ none ↔ Present W c.foreach c.top ρ) ∧
    (Present W c.foreach c.top ρ →
      b.at ρ = val E (fun n => List.lookup n []) (Expr.inline (fun n => [(s, u)].lookup n) t) ρ) := by
  have hr : Reads W c ρ (.arith t) [(s, u)] [] := by
    refine ⟨⟨always, by rw [heq]; exact List.mem_cons_self .., by simp⟩, ?_, ?_⟩
    · refine picks_one (n := s) hs.1 hs.2 (l := scaler unit) ?_ hv htr
      rw [hsubs]
      exact lookup_hit _ _ _
    · have : bodySlices (.arith t : Body V) ++ [(s, u)].flatMap (fun p => sliceRefs p.2) = [] := by
        rw [hsl]; simp [hu]
      rw [this]
      exact picks_nil
  obtain ⟨h1, h2⟩ := expression_present S.wf S.coords henum hn hres hb hloc hρ
  refine ⟨h1.trans ⟨fun h => h.1, fun h => ⟨h, _, _, _, hr⟩⟩, fun hp => ?_⟩
  rw [h2 _ _ _ hp hr hok hap, readAs_val]

/-- A sum along a dimension that the expression does not have leaves it as it is. -/
theorem val_sum_lacks {sl : String → Option SliceDef} {t : Ex V} {d : String} {x : V}
    (hd : d ∉ (mean E sl (fun _ => true) [] t).dims) (hv : val E sl t ρ = some x) :
    val E sl (.sum t [d]) ρ = some x := by
  unfold val at hv ⊢
  simp only [mean, Fn.sumOver]
  have : (mean E sl (fun _ => true) [] t).dims.filter (fun x => decide (x ∈ [d])) = [] := by
    rw [List.filter_eq_nil_iff]
    intro x hx
    simp only [List.mem_singleton, decide_eq_true_eq]
    rintro rfl
    exact hd hx
  rw [this]
  have hp : points E.coords ([] : List String).dedup ρ = [ρ] := by simp [points]
  rw [hp, List.map_singleton, hv]
  exact (total_some [x] (by simp)).trans (by simp)

end

section
variable [Field V] [LinearOrder V] [IsStrictOrderedRing V] {E : Expr.Env V} {d : String} {f g : Point → V} {ρ : Point}

theorem sumOver_le (h : ∀ l ∈ E.coords d, f (set ρ d l) ≤ g (set ρ d l)) : sumOver E d f ρ ≤ sumOver E d g ρ := by
  unfold sumOver
  exact List.sum_le_sum h

theorem sumOver_pos (h : ∀ l ∈ E.coords d, 0 < f (set ρ d l)) (hc : E.coords d ≠ []) : 0 < sumOver E d f ρ := by
  unfold sumOver
  cases hl : E.coords d with
  | nil => exact absurd hl hc
  | cons a l =>
    rw [List.map_cons, List.sum_cons]
    refine add_pos_of_pos_of_nonneg (h a (by rw [hl]; exact List.mem_cons_self ..)) (List.sum_nonneg ?_)
    intro x hx
    obtain ⟨m, hm, rfl⟩ := List.mem_map.1 hx
    exact (h m (by rw [hl]; exact List.mem_cons_of_mem _ hm)).le

theorem sumOver_pos_of {l : Label} (h : ∀ l ∈ E.coords d, 0 ≤ f (set ρ d l)) (hl : l ∈ E.coords d)
    (hp : 0 < f (set ρ d l)) : 0 < sumOver E d f ρ := by
  rcases lt_or_ge 0 (sumOver E d f ρ) with h0 | h0
  · exact h0
  · have := sumOver_eq_zero_iff h h0 l hl
    rw [this] at hp
    exact absurd hp (lt_irrefl _)

end

end BaseMath
end Calliope
