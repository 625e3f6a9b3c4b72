import Verif.Model.InitTables
import Verif.Spec.Tables

/-!
# Specification vocabulary for definitions from data tables

What a loaded table (a dataset) says about technologies: that they exist, that they are at a node, and settings of
theirs.
-/

namespace Calliope
namespace Tables

open Grid ModelData

variable {V : Type}

/-- The table names the technology `t`. -/
def NamesTech (ds : DS V) (t : Label) : Prop := ("techs", t) ∈ ds.coords

/-- The table has a value for the technology `t` at the node `n`: one of an input over nodes and technologies. -/
def PutsAt (ds : DS V) (n t : Label) : Prop :=
  ∃ p a ρ v, (p, a) ∈ ds.vars ∧ "nodes" ∈ a.dims ∧ "techs" ∈ a.dims ∧ (∀ d ∈ a.dims, (d, ρ d) ∈ ds.coords) ∧
    ρ "nodes" = n ∧ ρ "techs" = t ∧ a.at ρ = some v

/-- The table has a value of the lookup `p` for the technology `t` and the label `l` of `dim`. -/
def LooksUp (ds : DS V) (p dim : String) (t l : Label) : Prop :=
  ∃ a ρ v, ds.vars.lookup p = some a ∧ (∀ d ∈ a.dims, (d, ρ d) ∈ ds.coords) ∧ ρ "techs" = t ∧ ρ dim = l ∧
    a.at ρ = some v

/-- The labels of a lookup as a setting: the label, or the list of them. -/
def asSetting (ls : List Label) (x : Datum V) : Prop :=
  (∃ l, ls = [l] ∧ x = .one (.str l)) ∨ (2 ≤ ls.length ∧ x = .list (ls.map (fun l => some (.str l))))

/-- The table sets `p` of technology `t` to `x`, as one of the inputs that define technologies. -/
def SetsBase (ds : DS V) (t : Label) (p : String) (x : Datum V) : Prop :=
  p ∈ ["base_tech", "link_to", "link_from"] ∧ ∃ a d v, ds.vars.lookup p = some a ∧ a.dims = [d] ∧ (d, t) ∈ ds.coords ∧
    a.at (fun _ => t) = some v ∧ x = .one v

/-- The table sets `p` of technology `t` to `x`, as a lookup. -/
def SetsLookup (lookups : List (String × String)) (ds : DS V) (t : Label) (p : String) (x : Datum V) : Prop :=
  ∃ dim ls, (p, dim) ∈ lookups ∧ NamesTech ds t ∧ ls.Nodup ∧ (∀ l, l ∈ ls ↔ LooksUp ds p dim t l) ∧ asSetting ls x

/-- The table sets `p` of technology `t` to `x`. -/
def Sets (lookups : List (String × String)) (ds : DS V) (t : Label) (p : String) (x : Datum V) : Prop :=
  SetsBase ds t p x ∨ SetsLookup lookups ds t p x

/-- The dictionaries have the same leaves at the paths `P`. -/
def SameLeaves (P : Path → Prop) (d d' : Dict (Datum V)) : Prop := ∀ q v, P q → (d'.LeafAt q v ↔ d.LeafAt q v)

end Tables
end Calliope
