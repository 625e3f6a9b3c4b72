import Verif.Model.ModelData
import Verif.Spec.AttrDict

/-!
# Specification vocabulary for the model inputs

`valueOf ds p ρ` is the value of the input `p` at the labels `ρ`.  `settingAt` is what a setting of the definition
says about the labels `ρ`.  `over` combines a setting with one that overrides it.
-/

namespace Calliope
namespace ModelData

open Grid

variable {V : Type}

/-- The value of an input at the labels `ρ` (`ρ d` the label of dimension `d`); `none` if missing. -/
def valueOf (ds : DS V) (p : String) (ρ : String → Label) : Option (Scalar V) :=
  match ds.vars.lookup p with
  | none => none
  | some a => a.at ρ

/-! ### What a setting says -/

/-- The rows of an index: each item a label, or a list of labels. -/
def rows (ctx : Ctx V) : Option (Datum V) → List (List Label)
  | none => []
  | some (.one x) => [[ctx.label x]]
  | some (.list xs) => xs.map (fun x => (x.map ctx.label).toList)
  | some (.lists xs) => xs.map (fun l => l.map ctx.label)

/-- Rows with their data: one item of data for all rows, or one for each. -/
def entries (rows : List (List Label)) : Option (Datum V) → List (List Label × Option (Scalar V))
  | none => rows.map (fun r => (r, none))
  | some (.one x) => rows.map (fun r => (r, some x))
  | some (.list xs) => rows.zip xs
  | some (.lists _) => []

/-- The names in a setting: one name, or a list of names. -/
def named (ctx : Ctx V) : Option (Datum V) → List String
  | some (.one x) => [ctx.label x]
  | some (.list xs) => xs.flatMap (fun x => (x.map ctx.label).toList)
  | _ => []

/-- `{data: …, index: …, dims: …}` at the labels `ρ`: the data of the row that has these labels. -/
def indexedAt (ctx : Ctx V) (data index dims : Option (Datum V)) (ρ : String → Label) : Option (Scalar V) :=
  match (entries (rows ctx index) data).find? (fun e => e.1 == (named ctx dims).map ρ) with
  | none => none
  | some e => e.2

/-- A setting of the definition at the labels `ρ`. -/
def settingAt (ctx : Ctx V) (p : Key) (v : Val (Datum V)) (ρ : String → Label) : Option (Scalar V) :=
  match v with
  | .dict d =>
    match d.get1 "data", d.get1 "index", d.get1 "dims" with
    | some (.leaf data), some (.leaf index), some (.leaf dims) => indexedAt ctx data index dims ρ
    | _, _, _ => none
  | .leaf none => none
  | .leaf (some a) =>
    match ctx.pivot p with
    | none =>
      match a with
      | .one x => some x
      | _ => none
    | some dim =>
      if ρ dim ∈ named ctx (some a) then some (.bool true) else none

/-- The setting `p` of a definition at the labels `ρ`. -/
def saysAt (ctx : Ctx V) (v : Option (Val (Datum V))) (p : Key) (ρ : String → Label) : Option (Scalar V) :=
  match v with
  | none => none
  | some v => settingAt ctx p v ρ

/-! ### Overriding -/

/-- Entries of `s` over those of `e`. -/
def overKeys : Def V → Def V → Def V
  | e, .nil => e
  | e, .leaf k a rest => overKeys (e.put1 k (.leaf a)) rest
  | e, .sub k d rest => overKeys (e.put1 k (.dict d)) rest

def dictOf : Option (Val (Datum V)) → Def V
  | some (.dict e) => e
  | _ => .nil

/-- A setting and one overriding it: the second if given; the keys of indexed data (`data`, `index`, `dims`) one by
one.  `None` does not override indexed data, and an empty dictionary overrides nothing. -/
def over (base new : Option (Val (Datum V))) : Option (Val (Datum V)) :=
  match new with
  | none => base
  | some (.leaf (some a)) => some (.leaf (some a))
  | some (.leaf none) =>
    match base with
    | some (.dict e) => some (.dict e)
    | _ => some (.leaf none)
  | some (.dict .nil) =>
    match base with
    | none => some (.dict .nil)
    | some v => some v
  | some (.dict s) => some (.dict (overKeys (dictOf base) s))

/-! ### Definitions -/

/-- Settings are values, or dictionaries of values. -/
def Flat (d : Def V) : Prop :=
  ∀ p s, d.get1 p = some (.dict s) → ∀ k w, s.get1 k = some w → ∃ a, w = .leaf a

/-- A definition as the schema allows it: keys once, settings flat, `active` no dictionary. -/
structure Plain (d : Def V) : Prop where
  wf : d.WF
  flat : Flat d
  act : ∀ s, d.get1 "active" ≠ some (.dict s)

/-- What is written for a technology or node: `null` counts as nothing. -/
def written : Option (Val (Datum V)) → Def V
  | some (.dict d) => d
  | _ => .nil

/-- The setting `p` of technology `t` at the top level: what is written there, over the data tables. -/
def techSetting (m : Source V) (t : Key) (p : Key) : Option (Val (Datum V)) :=
  over ((written (m.tables.get1 t)).get1 p) ((written (m.techs.get1 t)).get1 p)

/-- What is written for technology `t` at node `n`, if it is listed there. -/
def atNode (m : Source V) (n t : Key) : Option (Val (Datum V)) :=
  (written ((written (m.nodes.get1 n)).get1 "techs")).get1 t

/-- The setting `p` of technology `t` at node `n`: what is written there, over what is written for the technology,
over the data tables. -/
def nodeSetting (m : Source V) (n t : Key) (p : Key) : Option (Val (Datum V)) :=
  over ((written (m.tables.get1 t)).get1 p)
    (over ((written (m.techs.get1 t)).get1 p) ((written (atNode m n t)).get1 p))

/-- A setting counts as true unless it is `null`, false, zero or empty. -/
def yes (ctx : Ctx V) : Val (Datum V) → Bool
  | .leaf none => false
  | .leaf (some (.one (.bool b))) => b
  | .leaf (some (.one (.num v))) => ctx.nonzero v
  | .leaf (some (.one (.str s))) => s ≠ ""
  | .leaf (some (.list xs)) => !xs.isEmpty
  | .leaf (some (.lists xs)) => !xs.isEmpty
  | .dict .nil => false
  | .dict _ => true

/-- A setting `active` is on: not given, or true. -/
def on (ctx : Ctx V) : Option (Val (Datum V)) → Bool
  | none => true
  | some v => yes ctx v

/-- `n` is a node that is active. -/
def ActiveNode (ctx : Ctx V) (m : Source V) (n : Key) : Prop :=
  (∃ d, m.nodes.get1 n = some (.dict d)) ∧ on ctx ((written (m.nodes.get1 n)).get1 "active") = true

/-- A link can reach `n`: an active node, or one of the data tables. -/
def Reaches (ctx : Ctx V) (m : Source V) (ds0 : DS V) (n : Key) : Prop :=
  ActiveNode ctx m n ∨ ("nodes", n) ∈ ds0.coords

/-- Technology `t` is listed at node `n` and active there. -/
def ActiveAt (ctx : Ctx V) (m : Source V) (n t : Key) : Prop :=
  ActiveNode ctx m n ∧ (∃ v, atNode m n t = some v) ∧ on ctx (nodeSetting m n t "active") = true

/-- What node `n` itself sets for `p`. -/
def ownSetting (m : Source V) (n p : Key) : Option (Val (Datum V)) :=
  if p = "techs" then none else (written (m.nodes.get1 n)).get1 p

/-- `t` is an active transmission technology from node `nf` to node `nt`. -/
structure Link (ctx : Ctx V) (m : Source V) (t nf nt : Key) : Prop where
  tech : ∃ v, m.techs.get1 t = some v
  on : on ctx (techSetting m t "active") = true
  kind : techSetting m t "base_tech" = some (.leaf (some (.one (.str "transmission"))))
  here : ∃ x, techSetting m t "link_from" = some (.leaf (some (.one x))) ∧ ctx.label x = nf
  there : ∃ x, techSetting m t "link_to" = some (.leaf (some (.one x))) ∧ ctx.label x = nt

/-- The link `t` only goes one way. -/
def OneWay (ctx : Ctx V) (m : Source V) (t : Key) : Prop :=
  ∃ v, techSetting m t "one_way" = some v ∧ yes ctx v = true

/-- A model definition as the schema allows it. -/
structure Sound (m : Source V) : Prop where
  nodes : m.nodes.WF
  techs : m.techs.WF
  tables : m.tables.WF
  node : ∀ n d, m.nodes.get1 n = some (.dict d) → d.WF
  listed : ∀ n t d, atNode m n t = some (.dict d) → Plain d
  tech : ∀ t d, m.techs.get1 t = some (.dict d) → Plain d
  table : ∀ t d, m.tables.get1 t = some (.dict d) → Plain d

end ModelData
end Calliope
