import Verif.Spec.BaseBalance

/-!
# Specification: supply technologies with storage
-/

namespace Calliope
namespace BaseMath

open Grid Infix Expr Expand Build Where

variable {V : Type}

/-- A supply technology, with its source between the source and the store. -/
structure SourceData [Zero V] (E : Expr.Env V) where
  /-- use of the source -/
  source : Point → V
  /-- the part of it that arrives -/
  eff : Point → V
  isSource : Is E "source_use" [] source
  isEff : Is E "source_eff" [] eff

/-- What a time step adds to the store, less the outflow (with losses) of one carrier. -/
def SourceData.gain [Field V] {E : Expr.Env V} (A : SourceData E) (D : StorageData E) (ρ : Point) : V :=
  A.source ρ * A.eff ρ - D.out ρ

/-- A supply technology that has a store. -/
def SupplyStores (W : Where.Env) (ρ : Point) : Prop := Exists W "storage" ρ ∧ Text W "base_tech" "supply" ρ

/-- The inputs and variables that its balance depends on have no other dimensions than it. -/
structure SupplyInputs (W : Where.Env) : Prop where
  inputs : Within W ["nodes", "techs", "carriers", "timesteps"] ["base_tech", "cyclic_storage", "cluster_first_timestep"]
  storage : ResultWithin W ["nodes", "techs", "carriers", "timesteps"] "storage"

end BaseMath
end Calliope
