import Verif.Spec.Average

/-!
# Specification: math with more components

`Extended` math has all components of other math, in their order, and more: variables and global expressions with new names,
constraints and objectives.  A name is new for math if no string of its components has it.
-/

namespace Calliope
namespace Restrict

open Grid Expr Build BaseMath Assemble

variable {V : Type}

/-- The second list is the first with more items put in, and those items are `extra`. -/
inductive Among {α : Type} (extra : α → Prop) : List α → List α → Prop where
  | nil : Among extra [] []
  | kept (a : α) {l l' : List α} : Among extra l l' → Among extra (a :: l) (a :: l')
  | added (a : α) {l l' : List α} : extra a → Among extra l l' → Among extra l (a :: l')

/-- No string of math has one of these names. -/
structure Unused (new : String → Prop) (M : Math V) : Prop where
  vars : ∀ v ∈ M.vars, ∀ n ∈ VariableNames v, ¬new n
  components : ∀ c ∈ M.globals ++ M.constraints ++ M.objectives, ∀ n ∈ ComponentNames c, ¬new n

/-- `M'` is `M` with more components, whose names do not stand in `M`. -/
structure Extended (new : String → Prop) (M M' : Math V) : Prop where
  vars : Among (fun v : Variable V => new v.name) M.vars M'.vars
  globals : Among (fun c : Component V => new c.defn.name) M.globals M'.globals
  constraints : M.constraints.Sublist M'.constraints
  objectives : M.objectives.Sublist M'.objectives
  unused : Unused new M

/-- A constraint holds, at all items. -/
def Holds [LE V] (coords : String → List Label) (a : Arr (Option (Cell V))) : Prop :=
  ∀ c ∈ cells coords a.dims, ∀ k, a.val c = some k → Linear.Satisfied k

/-- The values of a variable are within its bounds, and integer if it is integer. -/
def Bounded [Field V] [LE V] (g : Given V) (coords : String → List Label) (v : Variable V) (b : Arr (Option (Limits V))) : Prop :=
  ∀ c ∈ cells coords b.dims, ∀ l, b.val c = some l →
    Linear.Within (g.x v.name c) l ∧ (v.integer = true → ∃ z : Int, g.x v.name c = z)

end Restrict
end Calliope
