import Verif.Spec.AttrDict
import Verif.Model.ModelDefinition

/-!
# Specification vocabulary for model definitions

Scenario reachability, template chains and clash-freedom, said without the model's functions.
-/

namespace Calliope
namespace Dict
variable {α : Type}

/-- No value (other than None) of `below` sits strictly above a leaf of `top`: the two
dictionaries agree on which paths are dictionaries. -/
def FitsOn (top below : Dict α) : Prop := ∀ p v, top.LeafAt p v → below.Clear p

/-- No key anywhere in `d` equals `k`. -/
def NoKey (k : Key) (d : Dict α) : Prop := ∀ p, k ∈ p → d.lookup p = none

/-- The leaves of `d` do not lie on a common branch with `p`: `d` says nothing about `p`. -/
def Silent (d : Dict α) (p : Path) : Prop := ∀ q v, d.LeafAt q v → ¬ Related q p

/-- No leaf of one dictionary lies on a common branch with a leaf of the other. -/
def Separate (a b : Dict α) : Prop := ∀ p v q w, a.LeafAt p v → b.LeafAt q w → ¬ Related q p

end Dict

namespace ModelDefinition

/-- `i` is among `items`, or among the items of a scenario reached from them. -/
inductive Reached (s : Scenarios) : List Item → Item → Prop where
  | here {items i} : i ∈ items → Reached s items i
  | nested {items n sub i} : .name n ∈ items → s.scenarios.lookup n = some sub →
      Reached s sub i → Reached s items i

/-- An item that is neither a scenario nor an override name. -/
def Bad (s : Scenarios) : Item → Prop
  | .dict => True
  | .name o => s.scenarios.lookup o = none ∧ o ∉ s.overrides

/-- What the user asked for with `scenario=...`: a scenario's name, or comma-separated names. -/
def Asked (s : Scenarios) (scenario : String) (n : String) : Prop :=
  (s.scenarios.lookup scenario ≠ none ∧ n = scenario) ∨
  (s.scenarios.lookup scenario = none ∧ n ∈ Text.split ',' scenario)

/-- Scenarios are not circular: some ranking of names decreases from a scenario to the
scenarios it lists. -/
def Acyclic (s : Scenarios) : Prop :=
  ∃ rank : String → Nat, ∀ n sub m sub', s.scenarios.lookup n = some sub → .name m ∈ sub →
    s.scenarios.lookup m = some sub' → rank m < rank n

/-- Template `n` is defined and inherits from template `m`. -/
def Inherits (raw : Def) (n m : Key) : Prop :=
  raw.lookup [n, "template"] = some (.leaf (some (.str m)))

/-- `n` inherits, in one or more steps, from `m`. -/
inductive InheritsPlus (raw : Def) : Key → Key → Prop where
  | one {n m} : Inherits raw n m → InheritsPlus raw n m
  | more {n m k} : Inherits raw n m → InheritsPlus raw m k → InheritsPlus raw n k

/-- Following inheritance from `n` runs into a cycle. -/
def Circular (raw : Def) (n : Key) : Prop :=
  InheritsPlus raw n n ∨ ∃ m, InheritsPlus raw n m ∧ InheritsPlus raw m m

/-- The bodies met when following inheritance from `n` to its end, nearest first, without
their `template` entries. -/
inductive Chain (raw : Def) : Key → List Def → Prop where
  | last {n body} : raw.lookup [n] = some (.dict body) → body.lookup ["template"] = none →
      Chain raw n [body.del1 "template"]
  | step {n body m bs} : raw.lookup [n] = some (.dict body) →
      body.lookup ["template"] = some (.leaf (some (.str m))) → Chain raw m bs →
      Chain raw n (body.del1 "template" :: bs)

end ModelDefinition
end Calliope
