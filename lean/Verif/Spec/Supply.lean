import Verif.Spec.Limits
import Verif.Spec.BaseBalance

/-!
# What demand, sources and ramping are about
-/

namespace Calliope
namespace BaseMath

open Grid Infix Expr Expand Build Where

variable {V : Type}

/-- What demand and sources are given per: per area, per flow capacity of all carriers, or in absolute terms. -/
def scaleOf [Field V] (W : Where.Env) (E : Expr.Env V) (unit : String) (area cap : Point → V) (ρ : Point) : V :=
  if Text W unit "per_area" ρ then area ρ
  else if Text W unit "per_cap" ρ then sumOver E "carriers" cap ρ
  else 1

/-- One of the units that there are. -/
def UnitKnown (W : Where.Env) (unit : String) (ρ : Point) : Prop :=
  Text W unit "per_area" ρ ∨ Text W unit "per_cap" ρ ∨ Text W unit "absolute" ρ

/-- Demand and sources of a model. -/
structure Needs [Zero V] (W : Where.Env) (E : Expr.Env V) where
  area : Point → V
  sinkEquals : Point → V
  sinkMax : Point → V
  sinkMin : Point → V
  sourceEquals : Point → V
  sourceMax : Point → V
  sourceMin : Point → V
  sourceEff : Point → V
  isArea : Is E "area_use" [] area
  isSinkEquals : Is E "sink_use_equals" [] sinkEquals
  isSinkMax : Is E "sink_use_max" [] sinkMax
  isSinkMin : Is E "sink_use_min" [] sinkMin
  isSourceEquals : Is E "source_use_equals" [] sourceEquals
  isSourceMax : Is E "source_use_max" [] sourceMax
  isSourceMin : Is E "source_use_min" [] sourceMin
  isSourceEff : Is E "source_eff" [] sourceEff
  kindWithin : Within W ["nodes", "techs"] ["base_tech"]
  sinkWithin : Within W ["nodes", "techs", "carriers", "timesteps"] ["sink_use_equals", "sink_use_max", "sink_use_min",
    "sink_unit"]
  sourceWithin : Within W ["nodes", "techs", "timesteps"] ["source_use_equals", "source_use_max", "source_use_min",
    "source_unit", "include_storage"]

/-- How fast flows may change. -/
structure Ramps [Field V] (W : Where.Env) (E : Expr.Env V) where
  ramping : Point → V
  isRamping : Is E "flow_ramping" [] ramping
  /-- time steps have a length -/
  hours : ∀ a, E.comp "timestep_resolution" = some a → ∀ ρ, Valid W ρ → (a.arr.at ρ).or a.default ≠ some 0
  /-- a minus sign negates -/
  minus : ∀ a, E.neg (some a) = some (-a)
  within : Within W ["nodes", "techs", "carriers"] ["flow_ramping", "carrier_in", "carrier_out"]

/-- The net flow per hour. -/
def Plant.power [Field V] [LE V] {W : Where.Env} {E : Expr.Env V} (P : Plant W E) (ρ : Point) : V :=
  (P.out ρ - P.inn ρ) / P.hours ρ

end BaseMath
end Calliope
