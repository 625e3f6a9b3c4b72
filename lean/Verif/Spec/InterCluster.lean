import Verif.Spec.BaseValue

/-!
# What storage between clusters of days should do

A point has a date (of the whole period) and a time step (of a representative day).
-/

namespace Calliope
namespace BaseMath

open Grid Infix Expr Expand Build Where

variable {V : Type}

/-- The time step is one of the representative day (cluster) `k` of the date. -/
def SameCluster (E : Expr.Env V) (ρ : Point) (k : Label) : Prop :=
  (∃ g, E.lookup "timestep_cluster" = some g ∧ g.at ρ = some k) ∧
  (∃ g, E.lookup "lookup_datestep_cluster" = some g ∧ g.at ρ = some k) ∧ k ∈ E.coords "clusters"

/-- The quantities of storage between clusters. -/
structure InterData [Zero V] (E : Expr.Env V) extends StorageData E where
  /-- what is left of all days before, at the start of a date -/
  inter : Point → V
  isInter : Is E "storage_inter_cluster" [] inter

/-- The energy that is really stored at the end of a time step of a date, if the time step ends `elapsed` hours after
the start of the date: what is left of what the date started with, and what the representative day stored since. -/
def InterData.stored [Field V] {E : Expr.Env V} (D : InterData E) (pw : V → V → V) (elapsed : Point → V)
    (ρ : Point) : V :=
  D.inter ρ * pw (1 - D.loss ρ) (elapsed ρ) + D.level ρ

/-- `σ` is the last time step of the date before `ρ`'s (the last date for the first). -/
def DayBefore (E : Expr.Env V) (ρ σ : Point) : Prop :=
  ∃ g l, E.lookup "lookup_datestep_last_cluster_timestep" = some g ∧ g.at (back E "datesteps" ρ) = some l ∧
    l ∈ E.coords "timesteps" ∧ σ = set (back E "datesteps" ρ) "timesteps" l

/-- Powers of a base. -/
def Powers [Field V] (pw : V → V → V) (a : V) : Prop :=
  (∀ x y, pw a (x + y) = pw a x * pw a y) ∧ ∀ n : ℕ, pw a n = a ^ n

/-- Quantities that are the same on all dates, and those that are the same in all time steps. -/
structure Shapes [Zero V] {E : Expr.Env V} (D : InterData E) : Prop where
  level : ∀ ρ d, D.level (set ρ "datesteps" d) = D.level ρ
  net : ∀ ρ d, D.out (set ρ "datesteps" d) = D.out ρ ∧ D.inn (set ρ "datesteps" d) = D.inn ρ
  hours : ∀ ρ d, D.hours (set ρ "datesteps" d) = D.hours ρ
  inter : ∀ ρ t, D.inter (set ρ "timesteps" t) = D.inter ρ
  loss : ∀ ρ t d, D.loss (set (set ρ "datesteps" d) "timesteps" t) = D.loss ρ

end BaseMath
end Calliope
