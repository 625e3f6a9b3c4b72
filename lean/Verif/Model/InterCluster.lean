import Verif.Model.BaseMath

/-!
# The math for storage between clusters of days

Source: `/repo/src/calliope/math/storage_inter_cluster.yaml`, each component as the parsed form of its strings, merged
with `/repo/src/calliope/math/base.yaml`.

The forms are checked against the tokens of the strings in `Props/MathParse.lean`.
-/

namespace Calliope
namespace BaseMath

open Grid Infix Expr Expand Build

variable {V : Type}

/-- A component with one equation and one slice. -/
def sliceOne (name : String) (foreach : List String) (top : Cond) (body : Body V) (s : String) (d : SliceDef) :
    Component V :=
  ⟨foreach, top, ⟨name, [(always, body)], [], [(s, [(always, d)])]⟩⟩

variable [Field V]

/-- `datesteps==get_val_at_index(datesteps=0)` -/
def firstDate : Cond := .atom (.cmp (.dim "datesteps") .eq (.valAt "datesteps" 0))

/-- `include_storage==True OR base_tech==storage` -/
def withStorage : Cond := either (isTrue "include_storage") (isText "base_tech" "storage")

/-- `storage_intra_max` (storage_inter_cluster.yaml:50-59). -/
def storageIntraMax : Component V :=
  sliceOne "storage_intra_max" ["nodes", "techs", "timesteps"] withStorage
    (.cmp (.comp "storage") "<=" (.sliced "storage_intra_cluster_max" [("clusters", .ref "cluster")]))
    "cluster" (.lookup "timestep_cluster" [])

/-- `storage_intra_min` (storage_inter_cluster.yaml:61-68). -/
def storageIntraMin : Component V :=
  sliceOne "storage_intra_min" ["nodes", "techs", "timesteps"] withStorage
    (.cmp (.comp "storage") ">=" (.sliced "storage_intra_cluster_min" [("clusters", .ref "cluster")]))
    "cluster" (.lookup "timestep_cluster" [])

/-- `storage_inter_max` (storage_inter_cluster.yaml:70-79). -/
def storageInterMax : Component V :=
  sliceOne "storage_inter_max" ["nodes", "techs", "datesteps"] withStorage
    (.cmp (bin (.comp "storage_inter_cluster") .plus
        (.sliced "storage_intra_cluster_max" [("clusters", .ref "cluster")])) "<=" (.comp "storage_cap"))
    "cluster" (.lookup "lookup_datestep_cluster" [])

/-- `storage_inter_min` (storage_inter_cluster.yaml:81-88). -/
def storageInterMin : Component V :=
  sliceOne "storage_inter_min" ["nodes", "techs", "datesteps"] withStorage
    (.cmp (bin (bin (.comp "storage_inter_cluster") .times
          (bin (bin (.num 1) .minus (.comp "storage_loss")) .pow (.num 24))) .plus
        (.sliced "storage_intra_cluster_min" [("clusters", .ref "cluster")])) ">=" (.num 0))
    "cluster" (.lookup "lookup_datestep_cluster" [])

/-- `storage_previous_step` of the storage balances within a day (storage_inter_cluster.yaml:25-37). -/
def storagePreviousStepIntra : List (Cond × Ex V) :=
  [(both firstStep (no (isTrue "cyclic_storage")),
    bin (.comp "storage_initial") .times (.comp "storage_cap")),
   (both (either (both firstStep (isTrue "cyclic_storage")) (no firstStep))
      (no (given "lookup_cluster_last_timestep")),
    bin (bin (bin (.num 1) .minus (.comp "storage_loss")) .pow
        (.roll (.comp "timestep_resolution") [("timesteps", 1)])) .times
      (.roll (.comp "storage") [("timesteps", 1)])),
   (both (given "lookup_cluster_last_timestep") (no (both firstStep (no (isTrue "cyclic_storage")))), .num 0)]

/-- `balance_storage` with the sub-expression of `storage_inter_cluster.yaml` (base.yaml:783-795,
storage_inter_cluster.yaml:39-41). -/
def balanceStorageIntra : Component V where
  foreach := ["nodes", "techs", "timesteps"]
  top := both (either (isTrue "include_storage") (isText "base_tech" "storage"))
    (no (either (isText "base_tech" "supply") (isText "base_tech" "demand")))
  defn := {
    name := "balance_storage"
    equations := [(always, .cmp (.comp "storage") "=="
      (bin3 (.sub "storage_previous_step") .minus (.sum (.comp "flow_out_inc_eff") ["carriers"])
        .plus (.sum (.comp "flow_in_inc_eff") ["carriers"])))]
    subs := [("storage_previous_step", storagePreviousStepIntra)]
    slices := [] }

/-- `balance_storage_inter` (storage_inter_cluster.yaml:90-113). -/
def balanceStorageInter : Component V where
  foreach := ["nodes", "techs", "datesteps"]
  top := withStorage
  defn := {
    name := "balance_storage_inter"
    equations := [(always, .cmp (.comp "storage_inter_cluster") "=="
      (bin (.sub "storage_previous_step") .plus (.sub "storage_intra")))]
    subs := [
      ("storage_previous_step",
        [(both firstDate (no (isTrue "cyclic_storage")), .comp "storage_initial"),
         (either (both firstDate (isTrue "cyclic_storage")) (no firstDate),
          bin (bin (bin (.num 1) .minus (.comp "storage_loss")) .pow (.num 24)) .times
            (.roll (.comp "storage_inter_cluster") [("datesteps", 1)]))]),
      ("storage_intra",
        [(both firstDate (no (isTrue "cyclic_storage")), .num 0),
         (no (both firstDate (no (isTrue "cyclic_storage"))),
          .sliced "storage" [("timesteps", .ref "final_step")])])]
    slices := [("final_step", [(always, .lookup "lookup_datestep_last_cluster_timestep" [("datesteps", 1)])])] }

/-- `set_storage_initial` with the equation of `storage_inter_cluster.yaml` (base.yaml:798-812,
storage_inter_cluster.yaml:43-48). -/
def setStorageInitialInter : Component V where
  foreach := ["nodes", "techs"]
  top := .chain (built "storage") (.more .and (given "storage_initial") (.one .and (isTrue "cyclic_storage")))
  defn := {
    name := "set_storage_initial"
    equations := [(always, .cmp
      (bin (.sliced "storage_inter_cluster" [("datesteps", .ref "final_step")]) .times
        (bin (bin (.num 1) .minus (.comp "storage_loss")) .pow (.num 24)))
      "==" (bin (.comp "storage_initial") .times (.comp "storage_cap")))]
    subs := []
    slices := [("final_step", [(always, .valAt "datesteps" (-1))])] }

end BaseMath
end Calliope
