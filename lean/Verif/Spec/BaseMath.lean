import Mathlib.Algebra.Field.Basic
import Mathlib.Algebra.Order.Field.Basic
import Verif.Spec.Build

/-!
# What the base math should say

Quantities are functions of points (a label for every dimension).
-/

namespace Calliope
namespace BaseMath

open Grid Infix Expr Expand Build Where

variable {V : Type}

/-- The component `n` has the value `f` at every point, from its data or its default, and it varies along the
dimensions `ds` unless it is zero everywhere. -/
def Is [Zero V] (E : Expr.Env V) (n : String) (ds : List String) (f : Point → V) : Prop :=
  ∃ c, E.comp n = some c ∧ (∀ ρ, (c.arr.at ρ).or c.default = some (f ρ)) ∧
    ((∀ d ∈ ds, d ∈ c.arr.dims) ∨ ∀ ρ, f ρ = 0)

/-- Arithmetic is that of the field `V`, with `pw` for powers. -/
structure Numbers [Field V] (E : Expr.Env V) (pw : V → V → V) : Prop where
  plus : ∀ a b, E.op .plus (some a) (some b) = some (a + b)
  minus : ∀ a b, E.op .minus (some a) (some b) = some (a - b)
  times : ∀ a b, E.op .times (some a) (some b) = some (a * b)
  div : ∀ a b, b ≠ 0 → E.op .div (some a) (some b) = some (a / b)
  pow : ∀ a b, E.op .pow (some a) (some b) = some (pw a b)

/-- The data that conditions and expressions are evaluated in are those of one model. -/
structure Setting [Field V] (W : Where.Env) (E : Expr.Env V) (pw : V → V → V) : Prop where
  wf : WellFormed E
  coords : E.coords = W.coords
  numbers : Numbers E pw
  time : "timesteps" ∈ W.dims
  steps : (W.coords "timesteps").Nodup

/-- The sum of a quantity over all labels of a dimension. -/
def sumOver [AddCommMonoid V] (E : Expr.Env V) (d : String) (f : Point → V) (ρ : Point) : V :=
  ((E.coords d).map (fun l => f (set ρ d l))).sum

/-- A solution satisfies a constraint. -/
def Satisfied [LE V] (b : Arr (Option (Cell V))) (ρ : Point) : Prop :=
  ∀ x y, (b.at ρ = some ⟨some x, "==", some y⟩ → x = y) ∧
    (b.at ρ = some ⟨some x, "<=", some y⟩ → x ≤ y) ∧ (b.at ρ = some ⟨some x, ">=", some y⟩ → y ≤ x)

/-- The item is one of the model: the definition matrix is true for it. -/
def InModel (W : Where.Env) (sets : List String) (ρ : Point) : Prop :=
  (∀ d ∈ sets, d ∈ W.matrix.dims ∨ d ∈ W.dims) ∧
  ∃ σ, Valid W σ ∧ SameAlong sets ρ σ ∧ W.matrix.at σ = true

/-- The value of an input (its default where it is missing) is true. -/
def Flag (W : Where.Env) (n : String) (ρ : Point) : Prop :=
  valueOf (W.input n) ρ = .bool true ∨ valueOf (W.input n) ρ = .num 1

/-- The value of an input is the text `s`. -/
def Text (W : Where.Env) (n s : String) (ρ : Point) : Prop := valueOf (W.input n) ρ = .str s

/-- The first time step. -/
def First (W : Where.Env) (ρ : Point) : Prop := (W.coords "timesteps").head? = some (ρ "timesteps")

/-- The time step before, the last one for the first. -/
def previous (W : Where.Env) (ρ : Point) : Point :=
  set ρ "timesteps" (rolled (W.coords "timesteps") 1 (ρ "timesteps"))

/-- A technology with storage that is neither a supply nor a demand. -/
def Stores (W : Where.Env) (ρ : Point) : Prop :=
  (Flag W "include_storage" ρ ∨ Text W "base_tech" "storage" ρ) ∧
    ¬ (Text W "base_tech" "supply" ρ ∨ Text W "base_tech" "demand" ρ)

/-- What the storage balance is about. -/
structure StorageData [Zero V] (E : Expr.Env V) where
  /-- stored energy at the end of a time step -/
  level : Point → V
  /-- discharge, with losses -/
  out : Point → V
  /-- charge, less losses -/
  inn : Point → V
  /-- initial level, as a fraction of the capacity -/
  init : Point → V
  cap : Point → V
  /-- loss per hour -/
  loss : Point → V
  /-- length of a time step -/
  hours : Point → V
  isLevel : Is E "storage" [] level
  isOut : Is E "flow_out_inc_eff" ["carriers"] out
  isInn : Is E "flow_in_inc_eff" ["carriers"] inn
  isInit : Is E "storage_initial" [] init
  isCap : Is E "storage_cap" [] cap
  isLoss : Is E "storage_loss" [] loss
  isHours : Is E "timestep_resolution" [] hours

/-- Net charge of a time step, over all carriers. -/
def StorageData.net [Field V] {E : Expr.Env V} (D : StorageData E) (ρ : Point) : V :=
  sumOver E "carriers" D.inn ρ - sumOver E "carriers" D.out ρ

/-- Inputs of these names have no other dimensions than `sets`. -/
def Within (W : Where.Env) (sets names : List String) : Prop :=
  ∀ n ∈ names, ∀ d ∈ (W.input n).arr.dims, d ∈ sets

/-- The inputs that the storage balance depends on have no other dimensions than it. -/
def StorageInputs (W : Where.Env) : Prop :=
  Within W ["nodes", "techs", "timesteps"]
    ["include_storage", "base_tech", "cyclic_storage", "cluster_first_timestep"]

/-- `v` is the level that a time step starts with: the initial level at the first step of storage that is not
cyclic; otherwise what is left of the level of the step before, which for the first step of a cluster of days is the
last step of the cluster. -/
def Before [Field V] (W : Where.Env) {E : Expr.Env V} (pw : V → V → V) (D : StorageData E) (ρ : Point) (v : V) : Prop :=
  (First W ρ ∧ ¬ Flag W "cyclic_storage" ρ ∧ v = D.init ρ * D.cap ρ) ∨
  (¬ (First W ρ ∧ ¬ Flag W "cyclic_storage" ρ) ∧ ¬ Flag W "cluster_first_timestep" ρ ∧
    v = pw (1 - D.loss ρ) (D.hours (previous W ρ)) * D.level (previous W ρ)) ∨
  (¬ (First W ρ ∧ ¬ Flag W "cyclic_storage" ρ) ∧ Flag W "cluster_first_timestep" ρ ∧
    ∃ g l, E.lookup "lookup_cluster_last_timestep" = some g ∧ g.at ρ = some l ∧ l ∈ E.coords "timesteps" ∧
      v = pw (1 - D.loss ρ) (D.hours (set ρ "timesteps" l)) * D.level (set ρ "timesteps" l))

/-- The part of the level of a time step that is lost until the next. -/
def StorageData.lost [Field V] {E : Expr.Env V} (D : StorageData E) (pw : V → V → V) (ρ : Point) : V :=
  (1 - pw (1 - D.loss ρ) (D.hours ρ)) * D.level ρ

/-- The sum of a quantity over some time steps. -/
def sumSteps [AddCommMonoid V] (steps : List Label) (f : Point → V) (ρ : Point) : V :=
  (steps.map (fun t => f (set ρ "timesteps" t))).sum

end BaseMath
end Calliope
