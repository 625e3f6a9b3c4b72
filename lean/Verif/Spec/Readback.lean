import Verif.Model.Readback
import Mathlib.Algebra.BigOperators.Group.List.Basic

/-!
# What a user expects to read
-/

namespace Calliope
namespace Readback

/-- The variables of an object. -/
def Occurs (v : Nat) : Obj → Prop
  | .num _ => False
  | .var w => v = w
  | .sum _ l q => (∃ t ∈ l, t.2 = v) ∨ ∃ t ∈ q, t.2.1 = v ∨ t.2.2 = v

/-- The number an object stands for if the variables have the values `f`. -/
def meaning (f : Nat → Rat) : Obj → Rat
  | .num q => q
  | .var v => f v
  | .sum c l q => c + (l.map (fun t => t.1 * f t.2)).sum + (q.map (fun t => t.1 * f t.2.1 * f t.2.2)).sum

/-- Every variable in the array has a value. -/
def Known {ι : Type} (σ : Values) (is : List ι) (a : ι → Option Obj) : Prop :=
  ∀ i ∈ is, ∀ o, a i = some o → ∀ v, Occurs v o → ∃ x, σ v = some x

/-- No products of variables. -/
def Linear : Obj → Prop
  | .sum _ _ q => q = []
  | _ => True

end Readback
end Calliope
