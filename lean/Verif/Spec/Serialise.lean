import Verif.Model.Serialise

/-!
# Specification vocabulary for saving attributes
-/

namespace Calliope
namespace Serialise

/-- Names the code uses for its own bookkeeping. -/
def reserved : List String :=
  ["serialised_single_element_list", "serialised_dicts", "serialised_bools", "serialised_nones",
   "serialised_sets"]

/-- An attribute dictionary: keys are unique, none is a bookkeeping name. -/
def Proper (a : Attrs) : Prop := (a.map Prod.fst).Nodup ∧ ∀ e ∈ a, e.1 ∉ reserved

/-- The dictionary survives being written as YAML text and parsed, and has no `import` entry. -/
def YamlSafe (Y : Yaml) (d : Def) : Prop :=
  Y.load (Y.dump d) = .ok d ∧ Imports.truthy (d.getKeyD ["import"] (.leaf Option.none)) = false

def AllStr (l : List Elem) : Prop := ∀ e ∈ l, ∃ s, e = .str s

/-- Values that can be saved: sequences hold strings only, dictionaries survive YAML. -/
def Saveable (Y : Yaml) : AVal → Prop
  | .dict d => YamlSafe Y d
  | .list l => AllStr l
  | .set l => AllStr l
  | _ => True

/-- A dataset whose attributes can all be saved. -/
def Dataset.Good (Y : Yaml) (ds : Dataset) : Prop :=
  (Proper ds.attrs ∧ ∀ e ∈ ds.attrs, Saveable Y e.2) ∧
  (∀ v ∈ ds.vars, Proper v.2 ∧ ∀ e ∈ v.2, Saveable Y e.2) ∧
  (∀ v ∈ ds.coords, Proper v.2 ∧ ∀ e ∈ v.2, Saveable Y e.2)

/-- No attribute is an empty list. -/
def NoEmptyList (a : Attrs) : Prop := ∀ e ∈ a, e.2 ≠ .list []

end Serialise
end Calliope
