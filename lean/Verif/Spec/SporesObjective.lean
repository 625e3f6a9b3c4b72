import Verif.Spec.Costs
import Verif.Model.Spores

/-!
# What the objective of SPORES mode is about
-/

namespace Calliope
namespace BaseMath

open Grid Infix Expr Expand Build Where

variable {V : Type}

/-- One technology at one node, with one carrier. -/
def place (ρ : Point) (n t c : Label) : Point := set (set (set ρ "nodes" n) "techs" t) "carriers" c

/-- The capacities of all technologies at all nodes, for all carriers, each times its score. -/
def scored [Field V] (E : Expr.Env V) (cap score : Point → V) (ρ : Point) : V :=
  ((E.coords "nodes").map fun n => ((E.coords "techs").map fun t => ((E.coords "carriers").map fun c =>
    cap (place ρ n t c) * score (place ρ n t c)).sum).sum).sum

/-- The penalty on demand that is not met and supply that is not used (a negative number). -/
def ObjectiveData.fine [Field V] {E : Expr.Env V} (O : ObjectiveData E) (weight : Point → V) (ρ : Point) : V :=
  ((E.coords "timesteps").map fun k => ((E.coords "carriers").map fun c => ((E.coords "nodes").map fun n =>
    O.unmet (set (set (set ρ "timesteps" k) "carriers" c) "nodes" n) -
      O.unused (set (set (set ρ "timesteps" k) "carriers" c) "nodes" n)).sum).sum *
    weight (set ρ "timesteps" k)).sum * O.penalty ρ

/-- The scores in the backend of a SPORES run are the parameter of the objective. -/
def Scores (score : Spores.Arr) (f : Point → Rat) : Prop :=
  ∀ ρ n t c, f (place ρ n t c) = (score ⟨n, t, c⟩).getD 0

end BaseMath
end Calliope
