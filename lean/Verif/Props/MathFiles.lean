import Verif.Model.MathFiles
import Verif.Props.MathText
import Verif.Spec.MathText

/-!
# C103: the math files mean the modelled math
-/

namespace Calliope
namespace MathText

section

open Lean Elab Tactic Meta in
/-- Both sides of an equation evaluate to the same value; the kernel alone evaluates them. -/
elab "kernel_rfl" : tactic => do
  let g ← getMainGoal
  let some (_, lhs, _) := (← instantiateMVars (← g.getType)).eq? | throwError "no equation"
  g.assign (← mkEqRefl lhs)

theorem bind_read {a : Option File} {b : File} {M : Math} (h1 : a = some b) (h2 : b.read = some M) :
    a.bind File.read = some M := by rw [h1]; exact h2

theorem built_base : buildMath shipped (priority (chars! "base") []) = some baseFile := by kernel_rfl

theorem read_base : baseFile.read = some baseMath := by kernel_rfl

/-- The math of base mode is the modelled math. -/
theorem C103_base : (buildMath shipped (priority (chars! "base") [])).bind File.read = some baseMath :=
  bind_read built_base read_base

theorem built_milp : buildMath shipped (priority (chars! "base") [chars! "milp"]) = some (baseFile.over milpFile) := by
  kernel_rfl

theorem read_milp : (baseFile.over milpFile).read = some milpMath := by kernel_rfl

/-- The math with `milp` as extra math is the modelled math. -/
theorem C103_milp :
    (buildMath shipped (priority (chars! "base") [chars! "milp"])).bind File.read = some milpMath :=
  bind_read built_milp read_milp

theorem built_operate : buildMath shipped (priority (chars! "operate") []) = some (baseFile.over operateFile) := by
  kernel_rfl

theorem read_operate : (baseFile.over operateFile).read = some operateMath := by kernel_rfl

/-- The math of operate mode is the modelled math, with capacities as inputs. -/
theorem C103_operate : (buildMath shipped (priority (chars! "operate") [])).bind File.read = some operateMath :=
  bind_read built_operate read_operate

theorem built_spores : buildMath shipped (priority (chars! "spores") []) = some (baseFile.over sporesFile) := by
  kernel_rfl

theorem read_spores : (baseFile.over sporesFile).read = some sporesMath := by kernel_rfl

/-- The math of SPORES mode is the modelled math. -/
theorem C103_spores : (buildMath shipped (priority (chars! "spores") [])).bind File.read = some sporesMath :=
  bind_read built_spores read_spores

theorem built_interCluster : buildMath shipped (priority (chars! "base") [chars! "storage_inter_cluster"]) =
    some (baseFile.over interClusterFile) := by kernel_rfl

theorem read_interCluster : (baseFile.over interClusterFile).read = some interClusterMath := by kernel_rfl

/-- The math with `storage_inter_cluster` as extra math is the modelled math. -/
theorem C103_inter_cluster :
    (buildMath shipped (priority (chars! "base") [chars! "storage_inter_cluster"])).bind File.read =
      some interClusterMath :=
  bind_read built_interCluster read_interCluster

/-- The math of base mode with any extra math whose names are new has all modelled components, in their order. -/
theorem C103_base_extra (m : File) (M : Math) (hm : (baseFile.over m).read = some M) (h : New baseFile m) :
    baseMath.vars.Sublist M.vars ∧ baseMath.globals.Sublist M.globals ∧ baseMath.constraints.Sublist M.constraints ∧
    baseMath.objectives.Sublist M.objectives ∧ baseMath.postprocessed.Sublist M.postprocessed ∧
    baseMath.checks.Sublist M.checks :=
  C103_extra baseFile m baseMath M read_base hm h

end

/-! ### Demo -/

section Demo

def demoConstraint : Raw where
  name := chars! "limit_node"
  foreach := some [chars! "nodes", chars! "carriers", chars! "timesteps"]
  cond := some (chars! "node_max")
  equations := some [⟨none, chars! "sum(flow_out, over=techs) <= node_max"⟩]

/-- An upper bound on what all technologies of a node put out; the parameter `bigM` is defined again. -/
def demoExtra : File where
  parameters := [{ name := chars! "node_max" }, { name := chars! "bigM" }]
  constraints := [demoConstraint]

/-- What `C103_base_extra` asks for. -/
example : New baseFile demoExtra := isNew_sound (by decide +kernel)

/-- What is added is read. -/
example : readConstraint (baseFile.over demoExtra).kinds demoConstraint =
    some ⟨["nodes", "carriers", "timesteps"], .atom (.input "node_max"),
      ⟨"limit_node", [(BaseMath.always, .cmp (.sum (.comp "flow_out") ["techs"]) "<=" (.comp "node_max"))], [], []⟩⟩ := by
  kernel_rfl

/-- A parameter in place of a variable, as in `operate.yaml`. -/
def demoReplaced : File where
  parameters := [{ name := chars! "source_cap" }]
  vars := [{ name := chars! "source_cap", active := some false }]

/-- A name that changes what it stands for: the math is accepted, and the conditions with that name are about the
parameter. -/
theorem C103_same_name : (baseFile.over demoReplaced).accepted = true ∧
    readConstraint (baseFile.over demoReplaced).kinds base_constraints_source_max ≠
      readConstraint baseFile.kinds base_constraints_source_max := by
  refine ⟨by decide +kernel, ?_⟩
  rw [show readConstraint baseFile.kinds base_constraints_source_max = some BaseMath.sourceMax from by kernel_rfl,
    show readConstraint (baseFile.over demoReplaced).kinds base_constraints_source_max =
      some (asInputs BaseMath.sourceMax) from by kernel_rfl]
  intro h
  have h1 := congrArg Build.Component.top (Option.some.inj h)
  revert h1
  decide

end Demo
end MathText
end Calliope
