import Verif.Model.SolverProblem

/-!
# What the solver should be given

After any history of calls the solver should work on the objects of the components that the backend holds: on all of
them, and on nothing else.
-/

namespace Calliope
namespace Problem

variable {P X : Type}

/-- `o` is an object of one of the components in the dataset. -/
def Held (dataset : List (String × Entry P)) (o : Obj P) : Prop := ∃ n e, (n, e) ∈ dataset ∧ o ∈ e.objs

/-- The point `x` does all that the objects say. -/
def Solves (holds : P → X → Prop) (objs : Obj P → Prop) (x : X) : Prop := ∀ o, objs o → holds o.says x

/-- A call that, with Gurobi, leaves nothing behind: it does not fail after having created objects, and it does not
delete a piecewise constraint. -/
def Clean : Call P → Prop
  | .add _ _ made fails => fails = true → made = []
  | .delete g _ => g ≠ .piecewise

end Problem
end Calliope
