import Mathlib.Algebra.Field.Defs
import Verif.Model.Build

/-!
# The base math

Source: `/repo/src/calliope/math/base.yaml`, each component as the parsed form of its strings.

The forms are checked against the tokens of the strings in `Props/BaseParse.lean`.
-/

namespace Calliope
namespace BaseMath

open Grid Infix Expr Expand Build

/-! ### Conditions -/

/-- No `where`: the default `"True"` (`/repo/src/calliope/schemas/math_schema.py:37`). -/
def always : Cond := .atom (.bool true)
/-- `name` of an input -/
def given (n : String) : Cond := .atom (.input n)
/-- `name` of a variable or global expression -/
def built (n : String) : Cond := .atom (.result n)
/-- `name==text` -/
def isText (n s : String) : Cond := .atom (.cmp (.input n) .eq (.str s))
/-- `name==True` -/
def isTrue (n : String) : Cond := .atom (.cmp (.input n) .eq (.bool true))
/-- `timesteps==get_val_at_index(timesteps=0)` -/
def firstStep : Cond := .atom (.cmp (.dim "timesteps") .eq (.valAt "timesteps" 0))
def no (t : Cond) : Cond := .pre .not t
def both (s t : Cond) : Cond := .chain s (.one .and t)
def either (s t : Cond) : Cond := .chain s (.one .or t)

variable {V : Type}

/-- `a o b` -/
def bin (a : Ex V) (o : Arith.Op) (b : Ex V) : Ex V := .chain a (.one o b)
/-- `a o b p c`, operators of one level -/
def bin3 (a : Ex V) (o : Arith.Op) (b : Ex V) (p : Arith.Op) (c : Ex V) : Ex V :=
  .chain a (.more o b (.one p c))

/-- A component with one equation and no sub-expressions. -/
def single (name : String) (foreach : List String) (top : Cond) (body : Body V) : Component V :=
  ⟨foreach, top, ⟨name, [(always, body)], [], []⟩⟩

variable [Field V]

/-! ### Storage -/

/-- `storage_previous_step` (base.yaml:736-751). -/
def storagePreviousStep : List (Cond × Ex V) :=
  [(both firstStep (no (isTrue "cyclic_storage")),
    bin (.comp "storage_initial") .times (.comp "storage_cap")),
   (both (either (both firstStep (isTrue "cyclic_storage")) (no firstStep))
      (no (isTrue "cluster_first_timestep")),
    bin (bin (bin (.num 1) .minus (.comp "storage_loss")) .pow
        (.roll (.comp "timestep_resolution") [("timesteps", 1)])) .times
      (.roll (.comp "storage") [("timesteps", 1)])),
   (both (isTrue "cluster_first_timestep") (no (both firstStep (no (isTrue "cyclic_storage")))),
    bin (bin (bin (.num 1) .minus (.comp "storage_loss")) .pow
        (.select (.comp "timestep_resolution") [("timesteps", "lookup_cluster_last_timestep")])) .times
      (.select (.comp "storage") [("timesteps", "lookup_cluster_last_timestep")]))]

/-- `balance_storage` (base.yaml:783-795). -/
def balanceStorage : Component V where
  foreach := ["nodes", "techs", "timesteps"]
  top := both (either (isTrue "include_storage") (isText "base_tech" "storage"))
    (no (either (isText "base_tech" "supply") (isText "base_tech" "demand")))
  defn := {
    name := "balance_storage"
    equations := [(always, .cmp (.comp "storage") "=="
      (.chain (.sub "storage_previous_step") (.more .minus (.sum (.comp "flow_out_inc_eff") ["carriers"])
        (.one .plus (.sum (.comp "flow_in_inc_eff") ["carriers"])))))]
    subs := [("storage_previous_step", storagePreviousStep)]
    slices := [] }

/-- `balance_supply_with_storage` (base.yaml:727-751). -/
def balanceSupplyWithStorage : Component V where
  foreach := ["nodes", "techs", "carriers", "timesteps"]
  top := both (built "storage") (isText "base_tech" "supply")
  defn := {
    name := "balance_supply_with_storage"
    equations := [(always, .cmp (.comp "storage") "=="
      (.chain (.sub "storage_previous_step") (.more .plus (bin (.comp "source_use") .times (.comp "source_eff"))
        (.one .minus (.comp "flow_out_inc_eff")))))]
    subs := [("storage_previous_step", storagePreviousStep)]
    slices := [] }

/-- `set_storage_initial` (base.yaml:798-812). -/
def setStorageInitial : Component V where
  foreach := ["nodes", "techs"]
  top := .chain (built "storage") (.more .and (given "storage_initial") (.one .and (isTrue "cyclic_storage")))
  defn := {
    name := "set_storage_initial"
    equations := [(always, .cmp
      (bin (.sliced "storage" [("timesteps", .ref "final_step")]) .times
        (bin (bin (.num 1) .minus (.comp "storage_loss")) .pow
          (.sliced "timestep_resolution" [("timesteps", .ref "final_step")])))
      "==" (bin (.comp "storage_initial") .times (.comp "storage_cap")))]
    subs := []
    slices := [("final_step", [(always, .valAt "timesteps" (-1))])] }

/-! ### Balances -/

/-- `system_balance` (base.yaml:676-686). -/
def systemBalance : Component V :=
  single "system_balance" ["nodes", "carriers", "timesteps"] always
    (.cmp (.chain (.sum (.comp "flow_out") ["techs"])
        (.more .minus (.sum (.comp "flow_in") ["techs"])
        (.more .minus (.sum (.comp "flow_export") ["techs"])
        (.one .plus (bin (.comp "unmet_demand") .plus (.comp "unused_supply"))))))
      "==" (.num 0))

/-- `balance_transmission` (base.yaml:815-822). -/
def balanceTransmission : Component V :=
  single "balance_transmission" ["techs", "timesteps"] (isText "base_tech" "transmission")
    (.cmp (.sum (.comp "flow_out_inc_eff") ["nodes", "carriers"]) "=="
      (.sum (.comp "flow_in_inc_eff") ["nodes", "carriers"]))

/-- `balance_conversion` (base.yaml:618-624). -/
def balanceConversion : Component V :=
  single "balance_conversion" ["nodes", "techs", "timesteps"]
    (both (isText "base_tech" "conversion") (no (isTrue "include_storage")))
    (.cmp (.sum (.comp "flow_out_inc_eff") ["carriers"]) "=="
      (.sum (.comp "flow_in_inc_eff") ["carriers"]))

/-- `flow_out_inc_eff` (base.yaml:1065-1081). -/
def flowOutIncEff : Component V where
  foreach := ["nodes", "techs", "carriers", "timesteps"]
  top := built "flow_out"
  defn := {
    name := "flow_out_inc_eff"
    equations := [
      (isText "base_tech" "transmission", .arith (bin (.comp "flow_out") .div
        (bin3 (.comp "flow_out_eff") .times (.comp "flow_out_parasitic_eff") .times
          (bin (.comp "flow_out_eff_per_distance") .pow (.comp "distance"))))),
      (no (isText "base_tech" "transmission"), .arith (bin (.comp "flow_out") .div
        (bin (.comp "flow_out_eff") .times (.comp "flow_out_parasitic_eff"))))]
    subs := []
    slices := [] }

/-- `flow_in_inc_eff` (base.yaml:1083-1095). -/
def flowInIncEff : Component V where
  foreach := ["nodes", "techs", "carriers", "timesteps"]
  top := built "flow_in"
  defn := {
    name := "flow_in_inc_eff"
    equations := [
      (isText "base_tech" "transmission", .arith (bin3 (.comp "flow_in") .times (.comp "flow_in_eff") .times
          (bin (.comp "flow_in_eff_per_distance") .pow (.comp "distance")))),
      (no (isText "base_tech" "transmission"), .arith (bin (.comp "flow_in") .times (.comp "flow_in_eff")))]
    subs := []
    slices := [] }

/-! ### Costs -/

/-- The expression of `annualisation_weight` (base.yaml:1199). -/
def yearPart : Ex V :=
  bin (.sum (bin (.comp "timestep_resolution") .times (.comp "timestep_weights")) ["timesteps"]) .div (.num 8760)

/-- `annualisation_weight` (base.yaml:1198-1199). -/
def annualisationWeight : List (Cond × Ex V) := [(always, yearPart)]

/-- `depreciation_rate` (base.yaml:1200-1208). -/
def depreciationRate : List (Cond × Ex V) :=
  let growth := bin (bin (.num 1) .plus (.comp "cost_interest_rate")) .pow (.comp "lifetime")
  [(given "cost_depreciation_rate", .comp "cost_depreciation_rate"),
   (both (no (given "cost_depreciation_rate"))
      (either (no (given "cost_interest_rate")) (.atom (.cmp (.input "cost_interest_rate") .eq (.num 0)))),
    bin (.num 1) .div (.comp "lifetime")),
   (both (no (given "cost_depreciation_rate")) (.atom (.cmp (.input "cost_interest_rate") .gt (.num 0))),
    bin (bin (.comp "cost_interest_rate") .times growth) .div (bin growth .minus (.num 1)))]

/-- `cost_investment_annualised` (base.yaml:1186-1208). -/
def costInvestmentAnnualised : Component V where
  foreach := ["nodes", "techs", "costs"]
  top := built "cost_investment"
  defn := {
    name := "cost_investment_annualised"
    equations := [(always, .arith (bin3 (.sub "annualisation_weight") .times (.sub "depreciation_rate") .times
      (.comp "cost_investment")))]
    subs := [("annualisation_weight", annualisationWeight), ("depreciation_rate", depreciationRate)]
    slices := [] }

/-! ### Post-processing -/

/-- `total_generation` (base.yaml:1272-1281). -/
def totalGeneration : Component V :=
  single "total_generation" ["techs", "carriers"]
    (both (built "flow_out") (no (isText "base_tech" "demand")))
    (.arith (.sum (bin (.comp "flow_out") .plus (bin (.comp "flow_export") .times (.comp "timestep_weights")))
      ["nodes", "timesteps"]))

end BaseMath
end Calliope
