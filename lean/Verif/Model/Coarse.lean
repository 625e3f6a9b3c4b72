import Verif.Model.Grid
import Verif.Model.Time

/-!
# Model of resampling of input arrays

Source: `/repo/src/calliope/preprocess/time.py:70-128` and the `resample_method` of each input in
`/repo/src/calliope/math/base.yaml`.

Simplification: the labels of the time steps in an interval are a parameter `steps` (`Model/Time.lean` has the
intervals themselves); data are rationals, a missing value is `none`.
-/

namespace Calliope
namespace Coarse

open Grid Time

/-- `resample_method` of the inputs of the base math (base.yaml:67-445; math_schema.py:84, 104 for the others). -/
def methodOf (n : String) : Method :=
  if n ∈ ["sink_use_min", "sink_use_max", "sink_use_equals", "source_use_min", "source_use_max", "source_use_equals",
    "timestep_resolution"] then .sum
  else if n ∈ ["available_area", "cost_export", "cost_flow_in", "cost_source_use", "cost_flow_out", "distance",
    "flow_out_min_relative", "flow_in_eff", "flow_in_eff_per_distance", "flow_out_eff", "flow_out_eff_per_distance",
    "flow_out_parasitic_eff", "lifetime", "source_eff", "source_cap_max", "source_cap_min", "storage_discharge_depth",
    "storage_loss", "timestep_weights", "latitude", "longitude"] then .mean
  else .first

/-- The labels `c` of the dimensions `dims`, with another time step. -/
def withStep (dims : List String) (c : List Label) (t : Label) : List Label :=
  dims.map (fun d => if d = "timesteps" then t else ((dims.zip c).lookup d).getD "")

/-- The time step among the labels `c` of the dimensions `dims`. -/
def stepIn (dims : List String) (c : List Label) : Label := ((dims.zip c).lookup "timesteps").getD ""

/-- An array through `resample` (time.py:96-126): one without time steps stays as it is (`data_non_ts`, line 97),
others hold, at each interval, what the method makes of the values of its time steps. -/
def resampled (steps : Label → List Label) (m : Method) (a : Arr (Option Rat)) : Arr (Option Rat) :=
  if a.dims.contains "timesteps" then
    ⟨a.dims, fun c => m.apply ((steps (stepIn a.dims c)).map (fun t => a.val (withStep a.dims c t)))⟩
  else a

end Coarse
end Calliope
