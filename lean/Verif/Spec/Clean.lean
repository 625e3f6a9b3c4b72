import Verif.Model.Clean
import Verif.Spec.ModelData

/-!
# Specification vocabulary for cleaning the inputs

`valueOf` (`Verif/Spec/ModelData.lean`) is the value of an input at labels `ρ`.  A combination of labels is defined if a
technology takes in or gives out a carrier there.
-/

namespace Calliope
namespace Clean

open Grid ModelData

variable {V : Type}

/-- A value counts as true unless it is missing, false, zero or empty. -/
def truth (nonzero : V → Bool) (x : Option (Scalar V)) : Prop :=
  x = some (.bool true) ∨ (∃ v, x = some (.num v) ∧ nonzero v = true) ∨ (∃ s, x = some (.str s) ∧ s ≠ "")

/-- The input `p` is indexed over the dimension `d`. -/
def Over (ds : DS V) (p d : String) : Prop := ∃ a, ds.vars.lookup p = some a ∧ d ∈ a.dims

/-- The labels of the input `p` at `ρ` are all in `coords`. -/
def Inside (coords : List (String × Label)) (ds : DS V) (p : String) (ρ : String → Label) : Prop :=
  ∀ d, Over ds p d → (d, ρ d) ∈ coords

/-- Carriers are indexed over this dimension (nodes, technologies and carriers). -/
def Index (ds : DS V) (d : String) : Prop := Over ds "carrier_in" d ∨ Over ds "carrier_out" d

/-- At `ρ`, the technology takes in or gives out the carrier at the node. -/
def Defines (T : Types V) (ds : DS V) (ρ : String → Label) : Prop :=
  truth T.nonzero (valueOf ds "carrier_in" ρ) ∨ truth T.nonzero (valueOf ds "carrier_out" ρ)

/-- `ρ` is a defined combination of labels of the dataset. -/
def Combination (T : Types V) (ds : DS V) (ρ : String → Label) : Prop :=
  (∀ d, Index ds d → (d, ρ d) ∈ ds.coords) ∧ Defines T ds ρ

open Classical in
/-- A value, as a boolean if the input is one: false if missing. -/
noncomputable def typed (T : Types V) (p : String) (v : Option (Scalar V)) : Option (Scalar V) :=
  if T.isBool p then some (.bool (decide (truth T.nonzero v))) else v

/-- The value of `p` at `ρ` matters: `ρ` can be completed to a defined combination, keeping its labels along the
dimensions of `p`. -/
def Matters (T : Types V) (ds : DS V) (p : String) (ρ : String → Label) : Prop :=
  ∃ σ, Combination T ds σ ∧ ∀ d, Index ds d → Over ds p d → σ d = ρ d

/-! ### Subsets -/

/-- A label is left by a selection: for dimensions selected from, one of those listed. -/
def Selected (sel : List (String × List Label)) (x : String × Label) : Prop :=
  ∀ keep, (x.1, keep) ∈ sel → x.2 ∈ keep

/-- A technology is a link. -/
def IsLink (ds : DS V) (t : Label) : Prop := valueOf ds "base_tech" (fun _ => t) = some (.str "transmission")

/-- `ρ` is marked in the definition matrix, at labels that are selected. -/
def Marked (ds : DS V) (sel : List (String × List Label)) (ρ : String → Label) : Prop :=
  valueOf ds "definition_matrix" ρ = some (.bool true) ∧
    ∀ d, Over ds "definition_matrix" d → (d, ρ d) ∈ ds.coords ∧ Selected sel (d, ρ d)

/-- `ρ` with another node. -/
def withNode (ρ : String → Label) (n : Label) : String → Label := fun d => if d = "nodes" then n else ρ d

/-- A link that is left, for some carrier, at just one node. -/
def Hanging (ds : DS V) (sel : List (String × List Label)) (t : Label) : Prop :=
  IsLink ds t ∧ ∃ ρ, Marked ds sel ρ ∧ ρ "techs" = t ∧ ∀ n, Marked ds sel (withNode ρ n) → n = ρ "nodes"

/-- Technology `t` is at node `n`. -/
def AtNode (ds : DS V) (sel : List (String × List Label)) (t n : Label) : Prop :=
  ∃ ρ, Marked ds sel ρ ∧ ρ "techs" = t ∧ ρ "nodes" = n

/-- A dataset as cleaning leaves it, as far as subsetting needs it: unique names and dimensions, a definition matrix over technologies,
nodes and perhaps more, and the base technology of technologies. -/
structure Ready (ds : DS V) : Prop where
  names : (ds.vars.map Prod.fst).Nodup
  dims : ∀ a, ds.vars.lookup "definition_matrix" = some a → a.dims.Nodup
  nodes : Over ds "definition_matrix" "nodes"
  techs : Over ds "definition_matrix" "techs"
  base : Over ds "base_tech" "techs"
  only : ∀ d, Over ds "base_tech" d → d = "techs"

end Clean
end Calliope
