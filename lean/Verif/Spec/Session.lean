import Verif.Model.Session

/-!
# Specification vocabulary for sessions
-/

namespace Calliope
namespace Session

open Math (Field Component)

variable {δ V : Type}

/-- Components are only added, under names that the math does not have. -/
def OnlyNew (s : Model δ V) : List (Op δ V) → Prop
  | [] => True
  | .add g n c v ok :: os => (g ∈ ordered ∧ c.active = true ∧ v = none ∧ ∀ b, s.backend = some b → ∀ f, b.math f n = none) ∧
      OnlyNew (step s (.add g n c v ok)).1 os
  | .build force :: os => OnlyNew (step s (.build force)).1 os
  | .solve force ok optimal :: os => OnlyNew (step s (.solve force ok optimal)).1 os
  | _ :: _ => False

/-- The name is active in one group only. -/
def Sole (m : Mth δ) (g : Field) (n : String) (c : Component δ) : Prop :=
  g ∈ ordered ∧ m g n = some c ∧ c.active = true ∧ ∀ f, f ≠ g → isActive (m f n) = false

end Session
end Calliope
