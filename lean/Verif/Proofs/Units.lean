import Mathlib.Tactic.Linarith
import Verif.Spec.Units
import Verif.Props.Limits

/-!
What a constraint of several equations says.
-/

namespace Calliope
namespace BaseMath

open Grid Infix Expr Expand Build Where

variable {V : Type}

section
variable [Field V] {W : Where.Env} {E : Expr.Env V} {enum : List String → List String}
  {b : Arr (Option (Cell V))} {ρ : Point}

theorem cases_local {c : Component V} (hs : c.defn.subs = []) (hsl : c.defn.slices = [])
    (he : ∀ p ∈ c.defn.equations, Local W c.foreach p.1) : LocalCases W c :=
  ⟨he, by simp [hs], by simp [hsl]⟩

variable [LE V] {c : Component V} {w : Cond} {l r : Ex V} {x y : V}

theorem cases_le (hE : WellFormed E) (henum : Traverses enum) (hn : c.foreach.Nodup)
    (hres : resolved c.defn = true) (hb : buildConstraint W E enum c = .ok b) (hloc : LocalCases W c) (hρ : Valid W ρ)
    (hp : Present W c.foreach c.top ρ) (hm : (w, .cmp l "<=" r) ∈ c.defn.equations) (hw : Truth W ρ w)
    (hl : Ok l ∧ Apart c.foreach l) (hr : Ok r ∧ Apart c.foreach r)
    (hu : findSubs (.cmp l "<=" r) = [] ∧ bodySlices (.cmp l "<=" r) = []) (hs : Satisfied b ρ)
    (hx : plain E l ρ = some x) (hy : plain E r ρ = some y) : x ≤ y := by
  have := cmp_at hE henum hn hres hb hloc hρ hp hm hw hl hr hu
  rw [hx, hy] at this
  exact satisfied_le hs this

theorem cases_ge (hE : WellFormed E) (henum : Traverses enum) (hn : c.foreach.Nodup)
    (hres : resolved c.defn = true) (hb : buildConstraint W E enum c = .ok b) (hloc : LocalCases W c) (hρ : Valid W ρ)
    (hp : Present W c.foreach c.top ρ) (hm : (w, .cmp l ">=" r) ∈ c.defn.equations) (hw : Truth W ρ w)
    (hl : Ok l ∧ Apart c.foreach l) (hr : Ok r ∧ Apart c.foreach r)
    (hu : findSubs (.cmp l ">=" r) = [] ∧ bodySlices (.cmp l ">=" r) = []) (hs : Satisfied b ρ)
    (hx : plain E l ρ = some x) (hy : plain E r ρ = some y) : y ≤ x := by
  have := cmp_at hE henum hn hres hb hloc hρ hp hm hw hl hr hu
  rw [hx, hy] at this
  exact satisfied_ge hs this

end

theorem coords_of_valid [AddCommMonoid V] {W : Where.Env} {E : Expr.Env V} (h : E.coords = W.coords) {ρ : Point}
    (hρ : Valid W ρ) (d : String) : E.coords d ≠ [] := by
  rw [h]
  exact List.ne_nil_of_mem (hρ d)

/-- The value of the sum of one variable. -/
theorem sum_comp [Field V] {W : Where.Env} {E : Expr.Env V} (h : E.coords = W.coords) {ρ : Point} (hρ : Valid W ρ)
    {n d : String} {ds : List String} {f : Point → V} (hf : Is E n ds f) (hd : d ∈ ds) :
    plain E (.sum (.comp n) [d]) ρ = some (sumOver E d f ρ) := by
  rw [plain_val]
  exact (den_sum (es := []) (den_comp hf) hd (coords_of_valid h hρ d) (by simp)).1 ρ

/-- A sum of numbers that are not negative, if it is not positive. -/
theorem sumOver_eq_zero_iff [Field V] [LinearOrder V] [IsStrictOrderedRing V] {E : Expr.Env V} {d : String}
    {f : Point → V} {ρ : Point} (h : ∀ l ∈ E.coords d, 0 ≤ f (set ρ d l)) (hs : sumOver E d f ρ ≤ 0) :
    ∀ l ∈ E.coords d, f (set ρ d l) = 0 := by
  unfold sumOver at hs
  have key : ∀ L : List Label, (∀ l ∈ L, 0 ≤ f (set ρ d l)) → (L.map fun l => f (set ρ d l)).sum ≤ 0 →
      ∀ l ∈ L, f (set ρ d l) = 0 := by
    intro L
    induction L with
    | nil => simp
    | cons a L ih =>
      intro h hs
      rw [List.map_cons, List.sum_cons] at hs
      have h1 : 0 ≤ f (set ρ d a) := h a (List.mem_cons_self ..)
      have h2 : 0 ≤ (L.map fun l => f (set ρ d l)).sum := by
        apply List.sum_nonneg
        intro x hx
        obtain ⟨l, hl, rfl⟩ := List.mem_map.1 hx
        exact h l (List.mem_cons_of_mem _ hl)
      intro l hl
      rcases List.mem_cons.1 hl with rfl | hl
      · linarith
      · exact ih (fun l hl => h l (List.mem_cons_of_mem _ hl)) (by linarith) l hl
  exact key _ h hs

/-- A whole number between zero and one. -/
theorem zero_or_one [Field V] [LinearOrder V] [IsStrictOrderedRing V] {x : V} (h : ∃ k : Int, x = k) (h0 : 0 ≤ x)
    (h1 : x ≤ 1) : x = 0 ∨ x = 1 := by
  obtain ⟨k, rfl⟩ := h
  have a : 0 ≤ k := by exact_mod_cast h0
  have b : k ≤ 1 := by exact_mod_cast h1
  have : k = 0 ∨ k = 1 := by omega
  rcases this with rfl | rfl
  · left; simp
  · right; simp

end BaseMath
end Calliope
