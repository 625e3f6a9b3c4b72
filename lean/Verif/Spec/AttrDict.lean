import Verif.Model.AttrDict

/-!
# Specification vocabulary for nested dictionaries

Independent of the model's methods: a nested dictionary denotes a partial map from
paths to values (`lookup`).  Everything the property theorems say about dictionaries is
said with the definitions in this file.
-/

namespace Calliope
namespace Dict
variable {α : Type}

/-- What a nested dictionary denotes: the value found by following a path.
The empty path denotes the dictionary itself. -/
def lookup : Dict α → Path → Option (Val α)
  | d, [] => some (.dict d)
  | d, k :: ks =>
      match d.get1 k with
      | none => none
      | some (.leaf a) => if ks = [] then some (.leaf a) else none
      | some (.dict e) => lookup e ks

/-- Every key occurs once per level, as in any Python dictionary. -/
def WF : Dict α → Prop
  | .nil => True
  | .leaf k _ rest => k ∉ rest.keys ∧ rest.WF
  | .sub k d rest => k ∉ rest.keys ∧ d.WF ∧ rest.WF

/-- One path is a prefix of the other (they lie on one branch of the tree). -/
def Related (p q : Path) : Prop := p <+: q ∨ q <+: p

/-- The dictionary holds a non-dictionary value other than `None` at `p`. -/
def ScalarAt (d : Dict α) (p : Path) : Prop := ∃ a, d.lookup p = some (.leaf (some a))

/-- `p` is the path of a leaf: a non-dictionary value, or an empty dictionary. -/
def LeafAt (d : Dict α) (p : Path) (v : Val α) : Prop :=
  p ≠ [] ∧ d.lookup p = some v ∧ ∀ e, v = .dict e → e = .nil

/-- No value other than `None` sits strictly above `p` where a dictionary is needed. -/
def Clear (d : Dict α) (p : Path) : Prop :=
  ∀ q, q <+: p → q ≠ p → ¬ d.ScalarAt q

end Dict
end Calliope
