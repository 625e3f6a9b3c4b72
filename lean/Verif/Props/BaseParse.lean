import Verif.Model.BaseMath

/-!
# The base math is what its strings are parsed to

Every expression and condition of `Model/BaseMath.lean` that has an operator, beside the tokens of its string in
`/repo/src/calliope/math/base.yaml`.  Operands are single tokens: names, numbers, comparisons, function calls.
-/

namespace Calliope
namespace BaseMath
namespace Strings

open Grid Infix Expr Expand Build

variable {V : Type} [Field V]

mutual
/-- What the parse actions build from a parse tree with expressions for operands. -/
def ofTree : Tree Arith.Op (Ex V) → Ex V
  | .atom a => a
  | .pre o t => .sign o (ofTree t)
  | .chain t r => .chain (ofTree t) (ofRest r)
def ofRest : Rest Arith.Op (Ex V) → ExRest V
  | .one o t => .one o (ofTree t)
  | .more o t r => .more o (ofTree t) (ofRest r)
end

def arith (l : List (Tok Arith.Op (Ex V))) : Option (Ex V) := (Infix.parse Arith.levels l).map ofTree
def cond (l : List (Tok Where.Op Where.Leaf)) : Option Cond := Infix.parse Where.levels l

def c (n : String) : Tok Arith.Op (Ex V) := .atom (.comp n)
def ref (n : String) : Tok Arith.Op (Ex V) := .atom (.sub n)
def f (t : Ex V) : Tok Arith.Op (Ex V) := .atom t
def k (v : V) : Tok Arith.Op (Ex V) := .atom (.num v)
local notation "mul" => Tok.op Arith.Op.times
local notation "add" => Tok.op Arith.Op.plus
local notation "sub" => Tok.op Arith.Op.minus
local notation "dvd" => Tok.op Arith.Op.div
local notation "pwr" => Tok.op Arith.Op.pow
local notation "lp" => Tok.lpar
local notation "rp" => Tok.rpar

def i (n : String) : Tok Where.Op Where.Leaf := .atom (.input n)
def r (n : String) : Tok Where.Op Where.Leaf := .atom (.result n)
def text (n s : String) : Tok Where.Op Where.Leaf := .atom (.cmp (.input n) .eq (.str s))
def true' (n : String) : Tok Where.Op Where.Leaf := .atom (.cmp (.input n) .eq (.bool true))
def first : Tok Where.Op Where.Leaf := .atom (.cmp (.dim "timesteps") .eq (.valAt "timesteps" 0))
local notation "AND" => Tok.op Where.Op.and
local notation "OR" => Tok.op Where.Op.or
local notation "NOT" => Tok.op Where.Op.not

/-- `storage_previous_step`: timesteps==get_val_at_index(timesteps=0) AND NOT cyclic_storage==True;
storage_initial * storage_cap -/
example : (storagePreviousStep (V := V))[0]?.map Prod.fst = cond [first, AND, NOT, true' "cyclic_storage"] := rfl
example : (storagePreviousStep (V := V))[0]?.map Prod.snd = arith [c "storage_initial", mul, c "storage_cap"] := rfl
/-- ( (timesteps==get_val_at_index(timesteps=0) AND cyclic_storage==True) OR NOT
timesteps==get_val_at_index(timesteps=0) ) AND NOT cluster_first_timestep==True -/
example : (storagePreviousStep (V := V))[1]?.map Prod.fst =
    cond [lp, lp, first, AND, true' "cyclic_storage", rp, OR, NOT, first, rp, AND, NOT,
      true' "cluster_first_timestep"] := rfl
/-- (1 - storage_loss) ** roll(timestep_resolution, timesteps=1) * roll(storage, timesteps=1) -/
example : (storagePreviousStep (V := V))[1]?.map Prod.snd =
    arith [lp, k 1, sub, c "storage_loss", rp, pwr, f (.roll (.comp "timestep_resolution") [("timesteps", 1)]), mul,
      f (.roll (.comp "storage") [("timesteps", 1)])] := rfl
/-- cluster_first_timestep==True AND NOT (timesteps==get_val_at_index(timesteps=0) AND NOT cyclic_storage==True) -/
example : (storagePreviousStep (V := V))[2]?.map Prod.fst =
    cond [true' "cluster_first_timestep", AND, NOT, lp, first, AND, NOT, true' "cyclic_storage", rp] := rfl
/-- (1 - storage_loss) ** select_from_lookup_arrays(timestep_resolution, timesteps=lookup_cluster_last_timestep) *
select_from_lookup_arrays(storage, timesteps=lookup_cluster_last_timestep) -/
example : (storagePreviousStep (V := V))[2]?.map Prod.snd =
    arith [lp, k 1, sub, c "storage_loss", rp, pwr,
      f (.select (.comp "timestep_resolution") [("timesteps", "lookup_cluster_last_timestep")]), mul,
      f (.select (.comp "storage") [("timesteps", "lookup_cluster_last_timestep")])] := rfl

/-- The sides of the comparison of the first equation. -/
def side (x : Bool) (d : Component V) : Option (Ex V) :=
  match d.defn.equations with
  | (_, .cmp l _ r) :: _ => some (if x then r else l)
  | _ => none
/-- An equation that is not a comparison. -/
def eqn (n : Nat) (d : Component V) : Option (Ex V) :=
  match d.defn.equations[n]? with
  | some (_, .arith t) => some t
  | _ => none

/-- `balance_storage`: (include_storage==true or base_tech==storage) AND NOT (base_tech==supply OR base_tech==demand);
$storage_previous_step - sum(flow_out_inc_eff, over=carriers) + sum(flow_in_inc_eff, over=carriers) -/
example : some (balanceStorage (V := V)).top = cond [lp, true' "include_storage", OR, text "base_tech" "storage", rp,
    AND, NOT, lp, text "base_tech" "supply", OR, text "base_tech" "demand", rp] := rfl
example : side true (balanceStorage (V := V)) = arith [ref "storage_previous_step", sub,
    f (.sum (.comp "flow_out_inc_eff") ["carriers"]), add, f (.sum (.comp "flow_in_inc_eff") ["carriers"])] := rfl

/-- `balance_supply_with_storage`: storage AND base_tech==supply;
$storage_previous_step + source_use * source_eff - flow_out_inc_eff -/
example : some (balanceSupplyWithStorage (V := V)).top = cond [r "storage", AND, text "base_tech" "supply"] := rfl
example : side true (balanceSupplyWithStorage (V := V)) = arith [ref "storage_previous_step", add, c "source_use", mul,
    c "source_eff", sub, c "flow_out_inc_eff"] := rfl

/-- `set_storage_initial`: storage AND storage_initial AND cyclic_storage==True;
storage[timesteps=$final_step] * ((1 - storage_loss) ** timestep_resolution[timesteps=$final_step]);
storage_initial * storage_cap -/
example : some (setStorageInitial (V := V)).top =
    cond [r "storage", AND, i "storage_initial", AND, true' "cyclic_storage"] := rfl
example : side false (setStorageInitial (V := V)) = arith [f (.sliced "storage" [("timesteps", .ref "final_step")]),
    mul, lp, lp, k 1, sub, c "storage_loss", rp, pwr,
    f (.sliced "timestep_resolution" [("timesteps", .ref "final_step")]), rp] := rfl
example : side true (setStorageInitial (V := V)) = arith [c "storage_initial", mul, c "storage_cap"] := rfl

/-- `system_balance`: sum(flow_out, over=techs) - sum(flow_in, over=techs) - sum(flow_export, over=techs) +
(unmet_demand + unused_supply) -/
example : side false (systemBalance (V := V)) = arith [f (.sum (.comp "flow_out") ["techs"]), sub,
    f (.sum (.comp "flow_in") ["techs"]), sub, f (.sum (.comp "flow_export") ["techs"]), add, lp, c "unmet_demand", add,
    c "unused_supply", rp] := rfl

/-- `balance_conversion`: base_tech==conversion AND NOT include_storage==true -/
example : some (balanceConversion (V := V)).top =
    cond [text "base_tech" "conversion", AND, NOT, true' "include_storage"] := rfl

/-- `flow_out_inc_eff`: flow_out / (flow_out_eff * flow_out_parasitic_eff * flow_out_eff_per_distance ** distance);
flow_out / (flow_out_eff * flow_out_parasitic_eff) -/
example : eqn 0 (flowOutIncEff (V := V)) = arith [c "flow_out", dvd, lp, c "flow_out_eff", mul,
    c "flow_out_parasitic_eff", mul, c "flow_out_eff_per_distance", pwr, c "distance", rp] := rfl
example : eqn 1 (flowOutIncEff (V := V)) = arith [c "flow_out", dvd, lp, c "flow_out_eff", mul,
    c "flow_out_parasitic_eff", rp] := rfl

/-- `flow_in_inc_eff`: flow_in * flow_in_eff * flow_in_eff_per_distance ** distance; flow_in * flow_in_eff -/
example : eqn 0 (flowInIncEff (V := V)) = arith [c "flow_in", mul, c "flow_in_eff", mul, c "flow_in_eff_per_distance",
    pwr, c "distance"] := rfl
example : eqn 1 (flowInIncEff (V := V)) = arith [c "flow_in", mul, c "flow_in_eff"] := rfl

/-- `annualisation_weight`: sum(timestep_resolution * timestep_weights, over=timesteps) / 8760 -/
example : some (yearPart (V := V)) = (arith [c "timestep_resolution", mul, c "timestep_weights"]).bind
    (fun t => arith [f (.sum t ["timesteps"]), dvd, k 8760]) := rfl

/-- `depreciation_rate`: NOT cost_depreciation_rate AND (NOT cost_interest_rate OR cost_interest_rate==0);
NOT cost_depreciation_rate AND cost_interest_rate>0 -/
example : (depreciationRate (V := V))[1]?.map Prod.fst = cond [NOT, i "cost_depreciation_rate", AND, lp, NOT,
    i "cost_interest_rate", OR, .atom (.cmp (.input "cost_interest_rate") .eq (.num 0)), rp] := rfl
example : (depreciationRate (V := V))[2]?.map Prod.fst = cond [NOT, i "cost_depreciation_rate", AND,
    .atom (.cmp (.input "cost_interest_rate") .gt (.num 0))] := rfl
/-- 1 / lifetime -/
example : (depreciationRate (V := V))[1]?.map Prod.snd = arith [k 1, dvd, c "lifetime"] := rfl
/-- (cost_interest_rate * ((1 + cost_interest_rate) ** lifetime)) / (((1 + cost_interest_rate) ** lifetime) - 1) -/
example : (depreciationRate (V := V))[2]?.map Prod.snd =
    arith [lp, c "cost_interest_rate", mul, lp, lp, k 1, add, c "cost_interest_rate", rp, pwr, c "lifetime", rp, rp, dvd,
      lp, lp, lp, k 1, add, c "cost_interest_rate", rp, pwr, c "lifetime", rp, sub, k 1, rp] := rfl
/-- $annualisation_weight * $depreciation_rate * cost_investment -/
example : eqn 0 (costInvestmentAnnualised (V := V)) = arith [ref "annualisation_weight", mul, ref "depreciation_rate",
    mul, c "cost_investment"] := rfl

/-- `total_generation`: flow_out AND NOT base_tech==demand;
sum(flow_out + flow_export * timestep_weights, over=[nodes, timesteps]) -/
example : some (totalGeneration (V := V)).top = cond [r "flow_out", AND, NOT, text "base_tech" "demand"] := rfl
example : eqn 0 (totalGeneration (V := V)) = (arith [c "flow_out", add, c "flow_export", mul, c "timestep_weights"]).map
    (fun t => .sum t ["nodes", "timesteps"]) := rfl

end Strings
end BaseMath
end Calliope
