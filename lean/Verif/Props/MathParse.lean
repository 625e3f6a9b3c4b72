import Verif.Model.InterCluster
import Verif.Props.BaseParse

/-!
# The other math is what its strings are parsed to

As `Props/BaseParse.lean`, for the other math files.
-/

namespace Calliope
namespace BaseMath
namespace Strings

open Grid Infix Expr Expand Build

variable {V : Type} [Field V]

local notation "mul" => Tok.op Arith.Op.times
local notation "add" => Tok.op Arith.Op.plus
local notation "sub" => Tok.op Arith.Op.minus
local notation "dvd" => Tok.op Arith.Op.div
local notation "pwr" => Tok.op Arith.Op.pow
local notation "lp" => Tok.lpar
local notation "rp" => Tok.rpar
local notation "AND" => Tok.op Where.Op.and
local notation "OR" => Tok.op Where.Op.or
local notation "NOT" => Tok.op Where.Op.not

/-! ### `storage_inter_cluster.yaml` -/

def date : Tok Where.Op Where.Leaf := .atom (.cmp (.dim "datesteps") .eq (.valAt "datesteps" 0))
def cut (n d s : String) : Tok Arith.Op (Ex V) := f (.sliced n [(d, .ref s)])

/-- The alternatives of a sub-expression. -/
def subOf (n : String) (d : Component V) : List (Cond × Ex V) := (d.defn.subs.lookup n).getD []

/-- include_storage==True OR base_tech==storage -/
example : some withStorage = cond [true' "include_storage", OR, text "base_tech" "storage"] := rfl
/-- storage_inter_cluster + storage_intra_cluster_max[clusters=$cluster] <= storage_cap -/
example : side false (storageInterMax (V := V)) =
    arith [c "storage_inter_cluster", add, cut "storage_intra_cluster_max" "clusters" "cluster"] := rfl
/-- storage_inter_cluster * ((1 - storage_loss) ** 24) + storage_intra_cluster_min[clusters=$cluster] >= 0 -/
example : side false (storageInterMin (V := V)) = arith [c "storage_inter_cluster", mul, lp, lp, k 1, sub,
    c "storage_loss", rp, pwr, k 24, rp, add, cut "storage_intra_cluster_min" "clusters" "cluster"] := rfl

/-- timesteps==get_val_at_index(timesteps=0) AND NOT cyclic_storage==True; storage_initial * storage_cap -/
example : (storagePreviousStepIntra (V := V))[0]?.map Prod.fst = cond [first, AND, NOT, true' "cyclic_storage"] := rfl
example : (storagePreviousStepIntra (V := V))[0]?.map Prod.snd =
    arith [c "storage_initial", mul, c "storage_cap"] := rfl
/-- ( (timesteps==get_val_at_index(timesteps=0) AND cyclic_storage==True) OR NOT
timesteps==get_val_at_index(timesteps=0) ) AND NOT lookup_cluster_last_timestep -/
example : (storagePreviousStepIntra (V := V))[1]?.map Prod.fst = cond [lp, lp, first, AND, true' "cyclic_storage", rp,
    OR, NOT, first, rp, AND, NOT, i "lookup_cluster_last_timestep"] := rfl
/-- (1 - storage_loss) ** roll(timestep_resolution, timesteps=1) * roll(storage, timesteps=1) -/
example : (storagePreviousStepIntra (V := V))[1]?.map Prod.snd = arith [lp, k 1, sub, c "storage_loss", rp, pwr,
    f (.roll (.comp "timestep_resolution") [("timesteps", 1)]), mul,
    f (.roll (.comp "storage") [("timesteps", 1)])] := rfl
/-- lookup_cluster_last_timestep AND NOT (timesteps==get_val_at_index(timesteps=0) AND NOT cyclic_storage==True) -/
example : (storagePreviousStepIntra (V := V))[2]?.map Prod.fst = cond [i "lookup_cluster_last_timestep", AND, NOT, lp,
    first, AND, NOT, true' "cyclic_storage", rp] := rfl

/-- $storage_previous_step + $storage_intra -/
example : side true (balanceStorageInter (V := V)) = arith [ref "storage_previous_step", add, ref "storage_intra"] :=
  rfl
/-- datesteps==get_val_at_index(datesteps=0) AND NOT cyclic_storage==True -/
example : (subOf "storage_previous_step" (balanceStorageInter (V := V)))[0]?.map Prod.fst =
    cond [date, AND, NOT, true' "cyclic_storage"] := rfl
/-- (datesteps==get_val_at_index(datesteps=0) AND cyclic_storage==True) OR NOT datesteps==get_val_at_index(datesteps=0)
-/
example : (subOf "storage_previous_step" (balanceStorageInter (V := V)))[1]?.map Prod.fst =
    cond [lp, date, AND, true' "cyclic_storage", rp, OR, NOT, date] := rfl
/-- ((1 - storage_loss) ** 24) * roll(storage_inter_cluster, datesteps=1) -/
example : (subOf "storage_previous_step" (balanceStorageInter (V := V)))[1]?.map Prod.snd = arith [lp, lp, k 1, sub,
    c "storage_loss", rp, pwr, k 24, rp, mul, f (.roll (.comp "storage_inter_cluster") [("datesteps", 1)])] := rfl
/-- datesteps==get_val_at_index(datesteps=0) AND NOT cyclic_storage==True;
NOT (datesteps==get_val_at_index(datesteps=0) AND NOT cyclic_storage==True) -/
example : (subOf "storage_intra" (balanceStorageInter (V := V)))[0]?.map Prod.fst =
    cond [date, AND, NOT, true' "cyclic_storage"] := rfl
example : (subOf "storage_intra" (balanceStorageInter (V := V)))[1]?.map Prod.fst =
    cond [NOT, lp, date, AND, NOT, true' "cyclic_storage", rp] := rfl

/-- storage_inter_cluster[datesteps=$final_step] * ((1 - storage_loss) ** 24) -/
example : side false (setStorageInitialInter (V := V)) = arith [cut "storage_inter_cluster" "datesteps" "final_step",
    mul, lp, lp, k 1, sub, c "storage_loss", rp, pwr, k 24, rp] := rfl

end Strings
end BaseMath
end Calliope
