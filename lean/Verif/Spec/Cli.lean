import Verif.Model.Cli
import Verif.Spec.Config

/-!
# What `calliope run` should do
-/

namespace Calliope
namespace Cli

open Config

variable {M τ : Type}

/-- An option with a text that is not empty. -/
def Asked (o : Option (List Char)) (p : List Char) : Prop := o = some p ∧ p ≠ []

/-- The files asked for: the LP file only, or else the others. -/
def AskedFor (o : Options) : File → Prop
  | .lp p => Asked o.saveLp p
  | .csv p => (∀ q, ¬ Asked o.saveLp q) ∧ Asked o.saveCsv p
  | .netcdf p => (∀ q, ¬ Asked o.saveLp q) ∧ Asked o.saveNetcdf p

/-- The ending of a file name, which may be all of it. -/
def Ends (s : List Char) (e : String) : Prop := s = e.toList ∨ ∃ a, s = a ++ '.' :: e.toList

/-- How the model file is to be read: as the option says, or else as its ending says. -/
inductive Format (o : Options) : String → Prop
  | said (f) (h : o.modelFormat = some f.toList) : Format o f
  | yaml (e : String) (hn : o.modelFormat = none) (he : e = "yaml" ∨ e = "yml") (h : Ends o.modelFile e) :
      Format o "yaml"
  | netcdf (e : String) (hn : o.modelFormat = none) (he : e = "nc" ∨ e = "nc4" ∨ e = "netcdf")
      (h : Ends o.modelFile e) : Format o "netcdf"

/-- The model that is read: from YAML with the scenario and overrides, or from NetCDF without any. -/
inductive Reads (W : World M τ) (o : Options) : M → Prop
  | yaml (ov m) (hf : Format o "yaml") (hno : o.overrideDict = none → ov = .nil)
      (hov : ∀ t, o.overrideDict = some t → W.readText t = .ok ov)
      (h : W.readYaml o.modelFile o.scenario ov = .ok m) : Reads W o m
  | netcdf (m) (hf : Format o "netcdf") (hs : o.scenario = none) (ho : o.overrideDict = none)
      (h : W.readNetcdf o.modelFile = .ok m) : Reads W o m

/-- The model can be solved, with its own configuration. -/
structure Solves (W : World M τ) (m m' : M) (t : String) : Prop where
  may : W.mayS m = .ok ()
  solve : W.solve (W.withConfig m (W.config m)) = .ok (m', t)

/-- The configuration of a model is valid: an update that changes nothing is accepted. -/
def Valid (W : World M τ) (m : M) : Prop :=
  update W.pydantic (W.config m) (.sub "solve" .nil .nil) = .ok (W.config m)

/-- The configuration has a section `solve`, without an entry `solve`. -/
def HasSolve (c : Cfg τ) : Prop :=
  ∃ t fs ts sf, c = .base t fs ∧ fs.lookup "solve" = some (.base ts sf) ∧ sf.lookup "solve" = none

/-- What is asked for can be saved. -/
def Saved (W : World M τ) (o : Options) (m : M) : Prop :=
  (∀ p, Asked o.saveCsv p → W.toCsv m p = .ok ()) ∧ ∀ p, Asked o.saveNetcdf p → W.toNetcdf m p = .ok ()

end Cli
end Calliope
