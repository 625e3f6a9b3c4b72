import Verif.Spec.Supply
import Verif.Proofs.Units
import Verif.Props.BaseBalance

/-!
Constraints with a scaled amount.
-/

namespace Calliope
namespace BaseMath

open Grid Infix Expr Expand Build Where

variable {V : Type}

section
variable [LE V] {b : Arr (Option (Cell V))} {ρ : Point} {x y : V}

theorem satisfied_iff_eq (h : b.at ρ = some ⟨some x, "==", some y⟩) : Satisfied b ρ ↔ x = y := by
  refine ⟨fun s => satisfied_eq s h, ?_⟩
  intro e u v
  rw [h]
  refine ⟨?_, ?_, ?_⟩ <;> intro g
  · simp only [Option.some.injEq, Cell.mk.injEq] at g
    rw [← g.1, ← g.2.2]; exact e
  · simp at g
  · simp at g

theorem satisfied_iff_le (h : b.at ρ = some ⟨some x, "<=", some y⟩) : Satisfied b ρ ↔ x ≤ y := by
  refine ⟨fun s => satisfied_le s h, ?_⟩
  intro e u v
  rw [h]
  refine ⟨?_, ?_, ?_⟩ <;> intro g
  · simp at g
  · simp only [Option.some.injEq, Cell.mk.injEq] at g
    rw [← g.1, ← g.2.2]; exact e
  · simp at g

theorem satisfied_iff_ge (h : b.at ρ = some ⟨some x, ">=", some y⟩) : Satisfied b ρ ↔ y ≤ x := by
  refine ⟨fun s => satisfied_ge s h, ?_⟩
  intro e u v
  rw [h]
  refine ⟨?_, ?_, ?_⟩ <;> intro g
  · simp at g
  · simp at g
  · simp only [Option.some.injEq, Cell.mk.injEq] at g
    rw [← g.1, ← g.2.2]; exact e

theorem satisfied_none (h : b.at ρ = none) : Satisfied b ρ := by
  intro u v
  rw [h]
  simp

end

/-- The three cases of a scaler. -/
abbrev scaler [One V] (unit : String) : List (Cond × Ex V) :=
  [((isText unit "per_area"), .comp "area_use"), ((isText unit "per_cap"), .sum (.comp "flow_cap") ["carriers"]),
    ((isText unit "absolute"), .num 1)]

theorem text_other {W : Where.Env} {n s t : String} {ρ : Point} (h : Text W n s ρ) (hne : s ≠ t) : ¬ Text W n t ρ := by
  unfold Text at *
  rw [h]
  simpa using hne

section
variable [Field V] {W : Where.Env} {E : Expr.Env V} {pw : V → V → V} {enum : List String → List String}
  {b : Arr (Option (Cell V))} {ρ : Point}

theorem scaler_local {c : Component V} {s unit : String} (hs : c.defn.subs = [(s, scaler unit)])
    (hsl : c.defn.slices = []) (he : ∀ p ∈ c.defn.equations, Local W c.foreach p.1)
    (hu : ∀ d ∈ (W.input unit).arr.dims, d ∈ c.foreach) : LocalCases W c := by
  refine ⟨he, ?_, by simp [hsl]⟩
  rw [hs]
  intro q hq p hp
  rw [List.mem_singleton] at hq
  subst hq
  simp only [List.mem_cons, List.not_mem_nil, or_false] at hp
  rcases hp with rfl | rfl | rfl <;> exact hu

/-- What a constraint on a scaled amount compares. -/
theorem scaled_at (S : Setting W E pw) (henum : Traverses enum) {c : Component V} {s unit n amount o : String} {w : Cond}
    (hn : c.foreach.Nodup) (hres : resolved c.defn = true) (hb : buildConstraint W E enum c = .ok b)
    (hsubs : c.defn.subs = [(s, scaler unit)]) (hloc : LocalCases W c) (hρ : Valid W ρ)
    (hp : Present W c.foreach c.top ρ)
    (hm : (w, .cmp (.comp n) o (bin (.comp amount) .times (.sub s))) ∈ c.defn.equations) (hw : Truth W ρ w)
    (hk : UnitKnown W unit ρ) {x y : V} (hx : valueAt E n ρ = some x) (hy : valueAt E amount ρ = some y)
    {area cap : Point → V} (hA : Is E "area_use" [] area)
    (hC : Is E "flow_cap" ["nodes", "techs", "carriers"] cap) :
    b.at ρ = some ⟨some x, o, some (y * scaleOf W E unit area cap ρ)⟩ := by
  have key : ∀ (v : Cond) (t : Ex V) (z : V), (v, t) ∈ scaler unit → Truth W ρ v → Ok t → Apart c.foreach t →
      sliceRefs t = [] → (∀ sl, val E sl t ρ = some z) → b.at ρ = some ⟨some x, o, some (y * z)⟩ := by
    intro v t z hv htr h1 h2 h3 h4
    have hr : Reads W c ρ (.cmp (.comp n) o (bin (.comp amount) .times (.sub s))) [(s, t)] [] := by
      refine ⟨⟨w, hm, hw⟩, ?_, ?_⟩
      · refine picks_one (n := s) (by simp [findSubs, bin, subRefs, subRefsRest])
          (by simp [findSubs, bin, subRefs, subRefsRest]) (l := scaler unit) ?_ hv htr
        rw [hsubs]
        exact lookup_hit _ _ _
      · have : bodySlices (.cmp (.comp n) o (bin (.comp amount) .times (.sub s)) : Body V) ++
            [(s, t)].flatMap (fun p => sliceRefs p.2) = [] := by
          simp [bodySlices, bin, sliceRefs, sliceRefsRest, h3]
        rw [this]
        exact picks_nil
    rw [(constraint_present S.wf henum hn hres hb hloc hρ).2 _ _ _ _ _ hp hr
      (by simp [Expr.inline, Ok]) (by simp [Expr.inline, Apart])
      (by simpa [Expr.inline, Expr.inlineRest, bin, Ok, OkRest, List.lookup] using h1)
      (by simpa [Expr.inline, Expr.inlineRest, bin, Apart, ApartRest, List.lookup] using h2), readAs_val, readAs_val,
      inline_bin, val_bin]
    simp only [Expr.inline, lookup_hit, Option.getD_some]
    rw [val_comp, val_comp, hx, hy, h4, S.numbers.times]
  unfold scaleOf
  by_cases h1 : Text W unit "per_area" ρ
  · rw [if_pos h1]
    exact key _ _ _ (List.mem_cons_self ..) ((truth_isText _ _ _).2 h1) (by simp [Ok]) (by simp [Apart])
      (by simp [sliceRefs]) (fun sl => by rw [val_comp]; exact hA.at ρ)
  · rw [if_neg h1]
    by_cases h2 : Text W unit "per_cap" ρ
    · rw [if_pos h2]
      refine key _ _ _ (List.mem_cons_of_mem _ (List.mem_cons_self ..)) ((truth_isText _ _ _).2 h2)
        (by simp [Ok, NoOps]) (by simp [Apart, NoOps]) (by simp [sliceRefs]) ?_
      intro sl
      exact (den_sum (es := []) (den_comp hC) (by simp) (coords_of_valid S.coords hρ _) (by simp)).1 ρ
    · rw [if_neg h2]
      have h3 : Text W unit "absolute" ρ := by
        rcases hk with h | h | h
        · exact absurd h h1
        · exact absurd h h2
        · exact h
      exact key _ _ _ (by simp) ((truth_isText _ _ _).2 h3) (by simp [Ok]) (by simp [Apart])
        (by simp [sliceRefs]) (fun sl => val_num _ _)

end

end BaseMath
end Calliope
