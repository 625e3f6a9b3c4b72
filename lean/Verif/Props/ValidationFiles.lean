import Verif.Model.MathFiles
import Verif.Props.Validation

/-!
# C104: the shipped math files pass the validation
-/

namespace Calliope
namespace MathText

open Grammar (Str)

/-- The conditions of `C104_builds`, computed. -/
def usesActive (m : File) : Bool :=
  (m.vars ++ m.globals ++ m.constraints ++ m.objectives).all fun r => !r.isActive || activeUse m r

theorem usesActive_sound {m : File} (h : usesActive m = true) :
    ∀ r ∈ m.vars ++ m.globals ++ m.constraints ++ m.objectives, r.active ≠ some false → ActiveUse m r := by
  intro r hr ha
  have := List.all_eq_true.1 h r hr
  simp only [Bool.or_eq_true, Bool.not_eq_true', active_iff.2 ha, Bool.true_eq_false, false_or] at this
  exact activeUse_sound this

theorem validates_base : baseFile.validates = true := by decide +kernel
theorem validates_operate : (baseFile.over operateFile).validates = true := by decide +kernel
theorem validates_spores : (baseFile.over sporesFile).validates = true := by decide +kernel
theorem validates_milp : (baseFile.over milpFile).validates = true := by decide +kernel
theorem validates_interCluster : (baseFile.over interClusterFile).validates = true := by decide +kernel

/-- The shipped math of every mode, and base mode with either of the shipped extra math, passes the validation. -/
theorem C104_shipped : baseFile.validates = true ∧ (baseFile.over operateFile).validates = true ∧
    (baseFile.over sporesFile).validates = true ∧ (baseFile.over milpFile).validates = true ∧
    (baseFile.over interClusterFile).validates = true :=
  ⟨validates_base, validates_operate, validates_spores, validates_milp, validates_interCluster⟩

/-- What `C104_builds` asks for, in operate mode: variables are replaced by parameters of the same names. -/
example : ∀ r ∈ (baseFile.over operateFile).vars ++ (baseFile.over operateFile).globals ++
    (baseFile.over operateFile).constraints ++ (baseFile.over operateFile).objectives, r.active ≠ some false →
      ActiveUse (baseFile.over operateFile) r := usesActive_sound (by decide +kernel)

end MathText
end Calliope
