import Verif.Spec.BaseCost
import Verif.Model.Checks

/-!
# What checks of the input data are about
-/

namespace Calliope
namespace BaseMath

open Grid Infix Expr Expand Build Where

/-- A node, a technology at that node and a carrier of it there, with any label along every other dimension. -/
def Item (W : Where.Env) (ρ : Point) : Prop := Valid W ρ ∧ W.matrix.at ρ = true

/-- The condition of a check is true somewhere in the model. -/
def Reported (W : Where.Env) (c : Check) : Prop := ∃ ρ, Item W ρ ∧ Truth W ρ c.cond

/-- The messages of active checks of one severity whose condition is true somewhere in the model. -/
def Message (W : Where.Env) (cs : List Check) (raises : Bool) (m : String) : Prop :=
  ∃ c ∈ cs, c.active = true ∧ c.raises = raises ∧ c.message = m ∧ Reported W c

/-- Every such message, once, in alphabetical order. -/
structure Lists (W : Where.Env) (cs : List Check) (raises : Bool) (l : List String) : Prop where
  all : ∀ m, m ∈ l ↔ Message W cs raises m
  once : l.Nodup
  sorted : l.Pairwise (· ≤ ·)

/-- The condition of every active check can be evaluated. -/
def Evaluates (W : Where.Env) (cs : List Check) : Prop :=
  ∀ c ∈ cs, c.active = true → ∃ a, evalTree W c.cond = .ok a

/-- The same item at any node. -/
def Elsewhere (W : Where.Env) (ρ σ : Point) : Prop := Valid W σ ∧ ∀ d, d ≠ "nodes" → σ d = ρ d

end BaseMath
end Calliope
