import Verif.Model.Update

/-!
# Specification for C35 and C36: what it means for a component to depend on an input
-/

namespace Calliope
namespace Update

variable {ι V S : Type}

/-- Names of the defined components, in build order. -/
abbrev names (defs : List (String × Comp ι V S)) : List String := defs.map Prod.fst

/-- Evaluation of a definition uses only what it reports to have read, and raises when something it
reads is not there.  (Where this is not so: `C35_hidden_read`.) -/
structure Honest (isIn : String → Bool) (c : Comp ι V S) : Prop where
  locl : ∀ (i i' : Inputs ι V) (h h' : String → Option S) (v : S) (r : List String),
    c.run i h = some (v, r) → (∀ n ∈ r, i n = i' n ∧ h n = h' n) → c.run i' h' = some (v, r)
  present : ∀ (i : Inputs ι V) (h : String → Option S) (v : S) (r : List String),
    c.run i h = some (v, r) → ∀ n ∈ r, isIn n = true ∨ (h n).isSome = true

/-- A math definition as `add_optimisation_components` walks through it (C33): distinct names, none of
them an input, group by group. -/
structure Math (isIn : String → Bool) (defs : List (String × Comp ι V S)) : Prop where
  nodup : (names defs).Nodup
  notIn : ∀ x ∈ names defs, isIn x = false
  grouped : defs.Pairwise (fun a b => a.2.group ≤ b.2.group)
  inGroups : ∀ d ∈ defs, d.2.group ∈ groups
  honest : ∀ d ∈ defs, Honest isIn d.2

/-- `y` is reached from `x` by following references any number of times. -/
inductive Reach (refs : String → List String) : String → String → Prop where
  | here (x : String) : Reach refs x x
  | step {x y z : String} : y ∈ refs x → Reach refs y z → Reach refs x z

/-- A walk of exactly `k` references. -/
inductive Walk (refs : String → List String) : Nat → String → String → Prop where
  | here (x : String) : Walk refs 0 x x
  | step {k : Nat} {x y z : String} : y ∈ refs x → Walk refs k y z → Walk refs (k + 1) x z

/-- `x` reads `n` when it is evaluated on the state `t`. -/
def Reads (defs : List (String × Comp ι V S)) (t : State ι V S) (x n : String) : Prop :=
  ∃ c v r, (x, c) ∈ defs ∧ c.run t.inputs t.held = some (v, r) ∧ n ∈ r

/-- What a definition reads does not depend on the data. -/
def Static (defs : List (String × Comp ι V S)) : Prop :=
  ∀ d ∈ defs, ∀ i h v r i' h' v' r', d.2.run i h = some (v, r) → d.2.run i' h' = some (v', r') →
    ∀ n, n ∈ r ↔ n ∈ r'

/-- A definition depends on the input `p` only through which of its items have a value.  (With Pyomo
the values themselves sit in parameter objects that the arrays refer to.) -/
def ShapeOnly (defs : List (String × Comp ι V S)) (p : String) : Prop :=
  ∀ d ∈ defs, ∀ (i i' : Inputs ι V) (h : String → Option S), (∀ n, n ≠ p → i n = i' n) →
    (∀ j, (i p j).isSome = (i' p j).isSome) → d.2.run i h = d.2.run i' h

/-- `x` depends on `p`: it reads it, or it reads something that depends on it. -/
inductive DependsOn (defs : List (String × Comp ι V S)) (s : State ι V S) (p : String) :
    String → Prop where
  | direct {x : String} : Reads defs s x p → DependsOn defs s p x
  | through {x y : String} : DependsOn defs s p y → Reads defs s x y → DependsOn defs s p x

/-- One call of `update_input`. -/
structure Call (ι V : Type) where
  kind : Kind
  newDims : Bool
  name : String
  new : ι → Option V

/-- The inputs a user expects after some calls: entries given as NaN keep their value. -/
def expected : List (Call ι V) → Inputs ι V → Inputs ι V
  | [], i => i
  | u :: us, i => expected us (fun n j => if n = u.name then (u.new j).or (i n j) else i n j)

/-- Calls one after the other; the first that does not return ends it. -/
def calls (isIn : String → Bool) (defs : List (String × Comp ι V S)) (fuel : Nat) (b : Backend)
    (is : List ι) : List (Call ι V) → State ι V S → State ι V S × Result
  | [], s => (s, .returned)
  | u :: us, s =>
      match updateInput isIn defs fuel b u.kind u.newDims is s u.name u.new with
      | (s', .returned) => calls isIn defs fuel b is us s'
      | r => r

end Update
end Calliope
