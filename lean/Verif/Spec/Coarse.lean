import Mathlib.Algebra.Field.Rat
import Verif.Spec.Supply
import Verif.Model.Coarse

/-!
# What a model at a coarser time resolution has to do with the model that it is made from
-/

namespace Calliope
namespace Coarse

open Grid Infix Expr Expand Build Where BaseMath Time

/-- The second model has intervals for time steps: each holds some of the time steps of the first, `steps` says which;
together they hold all, in their order.  Nothing else about the items of the model differs. -/
structure Coarser (W W' : Where.Env) (steps : Label → List Label) : Prop where
  intervals : (W'.coords "timesteps").flatMap steps = W.coords "timesteps"
  full : ∀ T ∈ W'.coords "timesteps", steps T ≠ []
  others : ∀ d, d ≠ "timesteps" → W'.coords d = W.coords d
  dims : W'.dims = W.dims
  matrix : W'.matrix = W.matrix
  undated : "timesteps" ∉ W.matrix.dims

/-- The array `a`, and `d` where it has no value, are the data of an input of numbers, for conditions and for
expressions. -/
def Data (W : Where.Env) (E : Expr.Env Rat) (n : String) (a : Arr (Option Rat)) (d : Option Rat) : Prop :=
  ∀ ρ, Valid W ρ → (GivenAt W n ρ ↔ a.at ρ ≠ none) ∧ valueAt E n ρ = (a.at ρ).or d

/-- The second model has what resampling makes of the data of the first. -/
def Resampled (W W' : Where.Env) (E E' : Expr.Env Rat) (steps : Label → List Label) (n : String)
    (a : Arr (Option Rat)) : Prop :=
  ∃ d, Data W E n a d ∧ Data W' E' n (resampled steps (methodOf n) a) d

/-- An input that is dated and has values at all time steps of the interval. -/
def Filled (W W' : Where.Env) (E E' : Expr.Env Rat) (steps : Label → List Label) (n : String) (ρ : Point) : Prop :=
  ∃ a, Resampled W W' E E' steps n a ∧ "timesteps" ∈ a.dims ∧
    ∀ t ∈ steps (ρ "timesteps"), a.at (set ρ "timesteps" t) ≠ none

/-- An input without values at any time step of the interval. -/
def Empty (W W' : Where.Env) (E E' : Expr.Env Rat) (steps : Label → List Label) (n : String) (ρ : Point) : Prop :=
  ∃ a, Resampled W W' E E' steps n a ∧ ∀ t ∈ steps (ρ "timesteps"), a.at (set ρ "timesteps" t) = none

/-- An input that is not dated and has a value. -/
def Constant (W W' : Where.Env) (E E' : Expr.Env Rat) (steps : Label → List Label) (n : String) (ρ : Point) : Prop :=
  ∃ a, Resampled W W' E E' steps n a ∧ "timesteps" ∉ a.dims ∧ a.at ρ ≠ none

/-- Inputs that do not change within the interval. -/
def Even (W W' : Where.Env) (E E' : Expr.Env Rat) (steps : Label → List Label) (names : List String)
    (ρ : Point) : Prop :=
  ∀ n ∈ names, ∃ a, Resampled W W' E E' steps n a ∧ ∀ t ∈ steps (ρ "timesteps"), ∀ u ∈ steps (ρ "timesteps"),
    a.at (set ρ "timesteps" t) = a.at (set ρ "timesteps" u)

/-- An input of texts or flags is not dated, and is the same in both models. -/
def Alike (W W' : Where.Env) (n : String) : Prop :=
  W'.input n = W.input n ∧ "timesteps" ∉ (W.input n).arr.dims

/-- A quantity of an interval is the sum over its time steps. -/
def Added (W' : Where.Env) (steps : Label → List Label) (f f' : Point → Rat) : Prop :=
  ∀ ρ, Valid W' ρ → f' ρ = sumSteps (steps (ρ "timesteps")) f ρ

/-- A quantity of an interval is that of each of its time steps. -/
def Kept (W' : Where.Env) (steps : Label → List Label) (f f' : Point → Rat) : Prop :=
  ∀ ρ, Valid W' ρ → ∀ t ∈ steps (ρ "timesteps"), f' ρ = f (set ρ "timesteps" t)

/-- A quantity at the end of an interval is that at the end of its last time step. -/
def Ends (W' : Where.Env) (steps : Label → List Label) (f f' : Point → Rat) : Prop :=
  ∀ ρ, Valid W' ρ → ∀ t, (steps (ρ "timesteps")).getLast? = some t → f' ρ = f (set ρ "timesteps" t)

/-- A plan of the second model is one of the first, added up: flows are added up, capacities stay. -/
structure Totals {W W' : Where.Env} {E E' : Expr.Env Rat} (steps : Label → List Label) (P : Plant W E)
    (P' : Plant W' E') : Prop where
  out : Added W' steps P.out P'.out
  inn : Added W' steps P.inn P'.inn
  exp : Added W' steps P.exp P'.exp
  source : Added W' steps P.source P'.source
  cap : Kept W' steps P.cap P'.cap
  sourceCap : Kept W' steps P.sourceCap P'.sourceCap

/-- A plan with its costs, added up: flows are added up, capacities stay. -/
structure CostTotals {W W' : Where.Env} {E E' : Expr.Env Rat} (steps : Label → List Label) (C : CostModel W E)
    (C' : CostModel W' E') : Prop where
  out : Added W' steps C.out C'.out
  inn : Added W' steps C.inn C'.inn
  exp : Added W' steps C.exp C'.exp
  source : Added W' steps C.source C'.source
  flowCap : Kept W' steps C.flowCap C'.flowCap
  storageCap : Kept W' steps C.storageCap C'.storageCap
  sourceCap : Kept W' steps C.sourceCap C'.sourceCap
  area : Kept W' steps C.area C'.area

/-- The prices, and the weights of time steps. -/
def prices : List String :=
  ["cost_flow_cap", "cost_flow_cap_per_distance", "distance", "cost_storage_cap", "cost_source_cap", "cost_area_use",
    "cost_om_annual", "cost_om_annual_investment_fraction", "cost_export", "cost_flow_out", "cost_flow_in",
    "cost_source_use", "timestep_weights"]

/-- A constraint holds at all time steps of the interval. -/
def Throughout (b : Arr (Option (Cell Rat))) (steps : Label → List Label) (ρ : Point) : Prop :=
  ∀ t ∈ steps (ρ "timesteps"), Satisfied b (set ρ "timesteps" t)

end Coarse
end Calliope
