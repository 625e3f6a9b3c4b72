import Verif.Model.SaveLoad
import Verif.Spec.Clean

/-!
# Specification vocabulary for saving and reading a model
-/

namespace Calliope
namespace SaveLoad

open Grid ModelData Clean

variable {D V μ β : Type}

/-- A model says of itself that all that its configuration asks for has been done. -/
structure Done (a : Attrs μ β) : Prop where
  subset : a.runtime.subset = a.config.subset
  resample : a.runtime.resample = a.config.resample
  cluster : a.runtime.timeCluster = a.config.timeCluster
  instantiated : a.runtime.instantiated = true
  math : a.runtime.priority = "base" :: (if a.config.mode = "base" then [] else [a.config.mode]) ++ a.config.extraMath

/-- Two datasets say the same: labels, inputs with their dimensions, and values at the labels. -/
structure Same (a b : DS V) : Prop where
  labels : ∀ x, x ∈ a.coords ↔ x ∈ b.coords
  inputs : ∀ p, (∃ x, a.vars.lookup p = some x) ↔ ∃ x, b.vars.lookup p = some x
  over : ∀ p d, Over a p d ↔ Over b p d
  values : ∀ p ρ, Inside a.coords a p ρ → valueOf a p ρ = valueOf b p ρ

/-- What the math says of the types of some inputs. -/
structure Typing (T : Types V) : Prop where
  carrierIn : T.isBool "carrier_in" = true
  carrierOut : T.isBool "carrier_out" = true
  color : T.isBool "color" = false
  distance : T.isBool "distance" = false
  resolution : T.isBool "timestep_resolution" = false
  weights : T.isBool "timestep_weights" = false

/-- Technology `t` is at node `n`, with some carrier. -/
def Has (T : Types V) (ds : DS V) (t n : Label) : Prop := ∃ ρ, Combination T ds ρ ∧ ρ "techs" = t ∧ ρ "nodes" = n

/-- Nothing is left to be removed: each label of nodes, technologies and carriers is used; each value belongs to something
defined; the definition matrix says what is defined; no input is without values. -/
structure Tidy (T : Types V) (ds : DS V) : Prop where
  names : (ds.vars.map Prod.fst).Nodup
  index : ∀ d, Index ds d ↔ d = "nodes" ∨ d = "techs" ∨ d = "carriers"
  something : ∃ ρ, Combination T ds ρ
  carriers : ∀ p, p = "carrier_in" ∨ p = "carrier_out" → ∃ a, ds.vars.lookup p = some a
  used : ∀ d l, (d, l) ∈ ds.coords → Index ds d → ∃ ρ, Combination T ds ρ ∧ ρ d = l
  values : ∀ p, p ≠ "definition_matrix" → (∃ a, ds.vars.lookup p = some a) → ∀ ρ, Inside ds.coords ds p ρ →
    typed T p (valueOf ds p ρ) = valueOf ds p ρ ∧ (¬ Matters T ds p ρ → valueOf ds p ρ = typed T p none)
  present : ∀ p, p ≠ "definition_matrix" → (∃ a, ds.vars.lookup p = some a) →
    ∃ ρ, Inside ds.coords ds p ρ ∧ valueOf ds p ρ ≠ none
  matrix : ∃ a, ds.vars.lookup "definition_matrix" = some a
  matrixOver : ∀ d, Over ds "definition_matrix" d ↔ Index ds d
  matrixValue : ∀ ρ, (∀ d, Index ds d → (d, ρ d) ∈ ds.coords) →
    (Defines T ds ρ → valueOf ds "definition_matrix" ρ = some (.bool true)) ∧
    (¬ Defines T ds ρ → valueOf ds "definition_matrix" ρ = some (.bool false))

/-- Each technology has a colour. -/
def Coloured (ds : DS V) : Prop :=
  Over ds "color" "techs" ∧ ∀ ρ, Inside ds.coords ds "color" ρ → valueOf ds "color" ρ ≠ none

/-- If nodes have coordinates, each link has two nodes and a distance. -/
def Measured (T : Types V) (ds : DS V) : Prop :=
  (∃ a, ds.vars.lookup "latitude" = some a) → (∃ a, ds.vars.lookup "longitude" = some a) →
    (∃ a, ds.vars.lookup "base_tech" = some a) ∧
    ∀ t, ("techs", t) ∈ ds.coords → IsLink ds t →
      (∃ a b, a ≠ b ∧ ∀ n, Has T ds t n ↔ n = a ∨ n = b) ∧
      Over ds "distance" "techs" ∧ ∀ ρ, ρ "techs" = t → Inside ds.coords ds "distance" ρ → valueOf ds "distance" ρ ≠ none

/-- The settings of technologies that preprocessing looks at are over technologies only. -/
def PerTech (ds : DS V) : Prop := ∀ p, p = "color" ∨ p = "distance" ∨ p = "base_tech" → ∀ d, Over ds p d → d = "techs"

/-- There is nothing left to do when the model is initialised again. -/
structure Settled (T : Types V) (ds : DS V) : Prop where
  tidy : Tidy T ds
  coloured : Coloured ds
  measured : Measured T ds
  perTech : PerTech ds

/-- What has to hold of the inputs that a model is made of: names of inputs are unique, carriers are given over nodes,
technologies and carriers, something is defined, there is a time step, and the settings of technologies are over
technologies. -/
structure Given (T : Types V) (ds : DS V) : Prop where
  names : (ds.vars.map Prod.fst).Nodup
  index : ∀ d, Index ds d ↔ d = "nodes" ∨ d = "techs" ∨ d = "carriers"
  something : ∃ ρ, Combination T ds ρ
  time : ∃ l, ("timesteps", l) ∈ ds.coords
  perTech : PerTech ds

/-- A step leaves nothing to be done again, and leaves some time step. -/
def Keeps (T : Types V) (f : DS V → Except Err (DS V)) : Prop :=
  ∀ ds ds', f ds = .ok ds' → Settled T ds → (∃ l, ("timesteps", l) ∈ ds.coords) →
    Settled T ds' ∧ ∃ l, ("timesteps", l) ∈ ds'.coords

end SaveLoad
end Calliope
