import Verif.Spec.Typical

/-!
# Specification: averages over steps

The other way round: decisions for all steps become decisions for typical steps by their averages, each step counting as much
as its weight.
-/

namespace Calliope
namespace Average

open Grid Expr Build BaseMath Assemble
open Typical (Choice)

variable {V : Type} [Field V]

/-- The decisions `g'` of typical steps are the averages of the decisions `g` of the steps they stand for; other decisions are
the same. -/
structure Averaged (T : Choice) (w w' : Label → V) (s s' : State V) (M : Math V) (g g' : Given V) : Prop where
  steps : ∀ v ∈ M.vars, "timesteps" ∈ v.foreach → ∀ ρ : Point, (∀ d ∈ v.foreach, ρ d ∈ s'.W.coords d) →
    w' (ρ "timesteps") * g'.x v.name (v.foreach.map ρ) =
      (((s.W.coords "timesteps").filter (fun l => T.of l = ρ "timesteps")).map
        (fun l => w l * g.x v.name (v.foreach.map (fun d => if d = "timesteps" then l else ρ d)))).sum
  others : ∀ v ∈ M.vars, "timesteps" ∉ v.foreach → ∀ ρ : Point, (∀ d ∈ v.foreach, ρ d ∈ s'.W.coords d) →
    g'.x v.name (v.foreach.map ρ) = g.x v.name (v.foreach.map ρ)
  default : g'.default = g.default
  enum : g'.enum = g.enum

/-- Integer decisions are not decisions for steps. -/
def WholeOnce (M : Math V) : Prop := ∀ v ∈ M.vars, v.integer = true → "timesteps" ∉ v.foreach

/-- There are steps, and all count. -/
structure Weighty [LT V] (w : Label → V) (s : State V) : Prop where
  some : s.W.coords "timesteps" ≠ []
  positive : ∀ l ∈ s.W.coords "timesteps", 0 < w l

/-- The values of an objective that plans attain; `g` has the defaults of components. -/
def Attained [LE V] (g : Given V) (M : Math V) (s : State V) (i : Nat) : Set V :=
  { v | ∃ h P, Linear.SamePlace g h ∧ Linear.Feasible h M s P ∧ Linear.IsObjective P i v }

end Average
end Calliope
