import Mathlib.Data.List.Dedup
import Verif.Model.AttrDict
import Verif.Model.Grid

/-!
# Model of building the model inputs from the definition

Source: `/repo/src/calliope/preprocess/model_data.py:120-645` (`ModelDataBuilder`).

Simplifications:
* A data variable is an array over its dimensions with `none` for missing (NaN) items; a dataset is the labels of
  its coordinates and its data variables.  Aligning datasets by the union of their labels then changes no value.
  The order of labels and attributes of variables are left out.
* Names have no dots (`/repo/src/calliope/schemas/general.py:44`).
* The schema checks (model_data.py:214-219,526), logging and the conversion of data types are left out.
* `xr.merge` and `xr.combine_nested` fill missing items of one array from the next.  They also raise when two
  arrays disagree at an item; this is modelled where it can happen (`mergeNodes`).
* `_deactivate_item` for a technology at a node (model_data.py:502-506) changes nothing: it looks for carriers in the
  data of the data tables, from which they have been taken away (model_data.py:177-182).
-/

namespace Calliope
namespace ModelData

open Grid

/-- A number, boolean or text in the model definition. -/
inductive Scalar (V : Type) where
  | bool (b : Bool)
  | num (v : V)
  | str (s : String)
  deriving DecidableEq

/-- A value other than a dictionary in the model definition: one item, a list of items (`None` allowed), or a
list of lists. -/
inductive Datum (V : Type) where
  | one (x : Scalar V)
  | list (xs : List (Option (Scalar V)))
  | lists (xs : List (List (Scalar V)))
  deriving DecidableEq

/-- The definition of a technology or node: settings by name. -/
abbrev Def (V : Type) := Dict (Datum V)

/-- The settings of the code that matter here. -/
structure Ctx (V : Type) where
  /-- `math.lookups[name].pivot_values_to_dim` -/
  pivot : String → Option String
  /-- `config.init.broadcast_input_data` -/
  broadcast : Bool
  /-- an index item as label of a coordinate -/
  label : Scalar V → Label
  /-- `bool(x)` of a number -/
  nonzero : V → Bool

/-- The model definition (model_data.py:123-146): technologies, nodes, and technology data found in data
tables. -/
structure Source (V : Type) where
  techs : Dict (Datum V)
  nodes : Dict (Datum V)
  tables : Dict (Datum V)

/-- A dataset: the labels of each coordinate, and the data variables. -/
structure DS (V : Type) where
  coords : List (String × Label)
  vars : List (String × Arr (Option (Scalar V)))

variable {V : Type}

/-- `d.items()`. -/
def items {α : Type} : Dict α → List (Key × Val α)
  | .nil => []
  | .leaf k a rest => (k, .leaf a) :: items rest
  | .sub k d rest => (k, .dict d) :: items rest

/-! ### Inheritance -/

/-- `bool(x)`. -/
def truth (ctx : Ctx V) : Scalar V → Bool
  | .bool b => b
  | .num v => ctx.nonzero v
  | .str s => s ≠ ""

/-- `bool(v)` of a setting. -/
def truthVal (ctx : Ctx V) : Val (Datum V) → Bool
  | .leaf none => false
  | .leaf (some (.one x)) => truth ctx x
  | .leaf (some (.list xs)) => !xs.isEmpty
  | .leaf (some (.lists xs)) => !xs.isEmpty
  | .dict .nil => false
  | .dict _ => true

/-- `d.get("active", True)` as a truth value (model_data.py:302-303,485). -/
def active (ctx : Ctx V) (d : Def V) : Bool :=
  match d.get1 "active" with
  | none => true
  | some v => truthVal ctx v

/-- `base_def[item_name]` followed by `.union` (model_data.py:470-477): an item that is not a dictionary has no
`union`. -/
def baseDef (m : Source V) (name : Key) : Except Err (Def V) :=
  match m.techs.get1 name with
  | none => .error .keyError
  | some (.leaf _) => .error .attributeError
  | some (.dict d) => .ok d

/-- `item_def`, with `None` replaced by an empty dictionary (model_data.py:467-468). -/
def itemDef : Val (Datum V) → Except Err (Def V)
  | .leaf none => .ok .nil
  | .leaf (some _) => .error .attributeError
  | .dict d => .ok d

/-- The inherited definition of a technology (model_data.py:466-481). -/
def inheritTech (m : Source V) (name : Key) (v : Val (Datum V)) : Except Err (Def V) :=
  match itemDef v, baseDef m name with
  | .error e, .ok _ => .error e
  | _, .error e => .error e
  | .ok d, .ok b =>
    match b.union d true with
    | .error e => .error e
    | .ok u =>
      match m.tables.get1 name with
      | some (.dict t) => t.union u true
      | _ => .ok u

/-- The definition of a node: its own (model_data.py:482-483). -/
def inheritNode (_name : Key) (v : Val (Datum V)) : Except Err (Def V) := itemDef v

/-- `_inherit_defs` (model_data.py:424-494): the definitions of the active items, and the names of the others. -/
def inheritLoop (ctx : Ctx V) (f : Key → Val (Datum V) → Except Err (Def V)) :
    List (Key × Val (Datum V)) → Except Err (List (Key × Def V) × List Key)
  | [] => .ok ([], [])
  | (name, v) :: rest =>
    match f name v with
    | .error e => .error e
    | .ok d =>
      match inheritLoop ctx f rest with
      | .error e => .error e
      | .ok (on, off) => .ok (if active ctx d then ((name, d) :: on, off) else (on, name :: off))

/-! ### Links -/

/-- `tech_def.get("base_tech") == "transmission"` (model_data.py:523,637). -/
def isLink (d : Def V) : Bool :=
  match d.get1 "base_tech" with
  | some (.leaf (some (.one (.str s)))) => s == "transmission"
  | _ => false

/-- A node named in a link, if it is a name at all. -/
def nodeName (ctx : Ctx V) : Val (Datum V) → Option Label
  | .leaf (some (.one x)) => some (ctx.label x)
  | _ => none

/-- `d.pop(key)`. -/
def popKey (d : Def V) (k : Key) : Except Err (Val (Datum V) × Def V) :=
  match d.get1 k with
  | none => .error .keyError
  | some v => .ok (v, d.del1 k)

/-- `link_data.get("one_way", False)` (model_data.py:548). -/
def oneWay (ctx : Ctx V) (d : Def V) : Bool :=
  match d.get1 "one_way" with
  | none => false
  | some v => truthVal ctx v

/-- The definitions of a link at its two nodes (model_data.py:545-549,604-620). -/
def linkEnds (ctx : Ctx V) (d : Def V) : Except Err (Def V × Def V) :=
  if oneWay ctx d then
    match popKey d "carrier_out" with
    | .error e => .error e
    | .ok (_, f) =>
      match popKey d "carrier_in" with
      | .error e => .error e
      | .ok (_, t) => .ok (f, t)
  else .ok (d, d)

/-- A link at a node. -/
structure LinkAt (V : Type) where
  node : Label
  link : Key
  defn : Def V

/-- One link (model_data.py:532-556), `none` when one of its nodes is missing.  The dictionary `{node_from: …, node_to: …}` has one entry when the two nodes
are the same. -/
def placeLink (ctx : Ctx V) (known : Label → Bool) (name : Key) (d : Def V) :
    Except Err (Option (List (LinkAt V))) :=
  match popKey d "link_from" with
  | .error e => .error e
  | .ok (f, d1) =>
    match popKey d1 "link_to" with
    | .error e => .error e
    | .ok (t, d2) =>
      match nodeName ctx f, nodeName ctx t with
      | some nf, some nt =>
        if known nf && known nt then
          match linkEnds ctx d2 with
          | .error e => .error e
          | .ok (df, dt) =>
            .ok (some (if nf = nt then [⟨nt, name, dt⟩] else [⟨nf, name, df⟩, ⟨nt, name, dt⟩]))
        else .ok none
      | _, _ => .ok none

/-- The loop of `_links_to_node_format` (model_data.py:531-556): the links at their nodes, and the names of those with
missing nodes.  The links have different names, so that the union of line 551 adds entries. -/
def placeLinks (ctx : Ctx V) (known : Label → Bool) :
    List (Key × Def V) → Except Err (List (LinkAt V) × List Key)
  | [] => .ok ([], [])
  | (name, d) :: rest =>
    if isLink d then
      match placeLink ctx known name d with
      | .error e => .error e
      | .ok here =>
        match placeLinks ctx known rest with
        | .error e => .error e
        | .ok (out, missing) =>
          .ok (match here with
            | some l => (l ++ out, missing)
            | none => (out, name :: missing))
    else placeLinks ctx known rest

/-- The links at a node (model_data.py:223-225). -/
def linksAt (links : List (LinkAt V)) (node : Label) : List (Key × Def V) :=
  (links.filter (fun l => l.node == node)).map (fun l => (l.link, l.defn))

/-! ### From definitions to arrays -/

/-- Input data as dimensions and items (`ValidatedInput`, model_data.py:35-44). -/
structure Prepared (V : Type) where
  dims : List String
  cells : List (List Label × Option (Scalar V))

/-- `listify` of a setting (tools.py:31-49). -/
def listify : Option (Datum V) → List (Option (Scalar V))
  | none => []
  | some (.one x) => [some x]
  | some (.list xs) => xs
  | some (.lists _) => []

/-- `[listify(idx) for idx in listify(raw["index"])]` (model_data.py:396). -/
def indexItems (ctx : Ctx V) : Option (Datum V) → List (List Label)
  | none => []
  | some (.one x) => [[ctx.label x]]
  | some (.list xs) => xs.map (fun x => match x with | some y => [ctx.label y] | none => [])
  | some (.lists xs) => xs.map (fun l => l.map ctx.label)

/-- `listify(raw["dims"])` (model_data.py:404). -/
def dimNames (ctx : Ctx V) (v : Option (Datum V)) : List String :=
  (listify v).filterMap (fun x => x.map ctx.label)

/-- The data of each index item (model_data.py:329-332): one item for all, or a list of the same length. -/
def dataItems (v : Option (Datum V)) (n : Nat) : Option (List (Option (Scalar V))) :=
  match v with
  | none => some (List.replicate n none)
  | some (.one x) => some (List.replicate n (some x))
  | some (.list xs) => if xs.length = n then some xs else none
  | some (.lists _) => none

/-- A value of a dictionary that is not itself a dictionary. -/
def leafOf (d : Def V) (k : Key) : Except Err (Option (Datum V)) :=
  match d.get1 k with
  | none => .error .keyError
  | some (.leaf a) => .ok a
  | some (.dict _) => .error .typeError

/-- Indexed input data (model_data.py:394-404,328-336): the lengths must match, and an index item must not occur
twice. -/
def prepareIndexed (ctx : Ctx V) (d : Def V) : Except Err (Prepared V) :=
  match leafOf d "data", leafOf d "index", leafOf d "dims" with
  | .error e, _, _ => .error e
  | .ok _, .error e, _ => .error e
  | .ok _, .ok _, .error e => .error e
  | .ok data, .ok index, .ok dims =>
    let idx := indexItems ctx index
    if !ctx.broadcast && (listify data).length ≠ idx.length then .error .modelError
    else
      match dataItems data idx.length with
      | none => .error .valueError
      | some xs =>
        if idx.all (fun i => i.length = (dimNames ctx dims).length) && decide idx.Nodup then
          .ok ⟨dimNames ctx dims, idx.zip xs⟩
        else .error .valueError

/-- Input data whose values are labels of a dimension (model_data.py:405-412). -/
def preparePivot (ctx : Ctx V) (dim : String) (a : Datum V) : Except Err (Prepared V) :=
  let idx := (listify (some a)).filterMap (fun x => x.map (fun y => [ctx.label y]))
  if decide idx.Nodup then .ok ⟨[dim], idx.map (fun i => (i, some (.bool true)))⟩ else .error .valueError

/-- `_prepare_input_data_dict` and `_input_data_dict_to_array` (model_data.py:316-340,378-422). -/
def prepare (ctx : Ctx V) (name : Key) : Val (Datum V) → Except Err (Prepared V)
  | .dict d => prepareIndexed ctx d
  | .leaf none => .ok ⟨[], [([], none)]⟩
  | .leaf (some a) =>
    match ctx.pivot name with
    | some dim => preparePivot ctx dim a
    | none =>
      match a with
      | .one x => .ok ⟨[], [([], some x)]⟩
      | _ => .error .valueError

/-- The array of prepared data (model_data.py:328-340). -/
def toArr (p : Prepared V) : Arr (Option (Scalar V)) := ⟨p.dims, fun c => (p.cells.lookup c).join⟩

/-- Missing items of one array filled from another. -/
def fill (a b : Arr (Option (Scalar V))) : Arr (Option (Scalar V)) := zip (fun x y => x.or y) a b

/-- Add an array to the variable of that name. -/
def addVar : List (String × Arr (Option (Scalar V))) → String → Arr (Option (Scalar V)) →
    List (String × Arr (Option (Scalar V)))
  | [], n, a => [(n, a)]
  | (m, b) :: rest, n, a => if m = n then (m, fill b a) :: rest else (m, b) :: addVar rest n a

/-- The data of one item: its name is added in front of the index (model_data.py:363-371). -/
def atItem (dim : String) (item : Key) (p : Prepared V) : Prepared V :=
  ⟨dim :: p.dims, p.cells.map (fun c => (item :: c.1, c.2))⟩

/-- The labels of an array (its coordinates). -/
def labels (p : Prepared V) : List (String × Label) := p.cells.flatMap (fun c => p.dims.zip c.1)

/-- The settings of one item (model_data.py:362-374). -/
def addSettings (ctx : Ctx V) (dim : String) (item : Key) : DS V → List (Key × Val (Datum V)) → Except Err (DS V)
  | ds, [] => .ok ds
  | ds, (p, v) :: rest =>
    match prepare ctx p v with
    | .error e => .error e
    | .ok q =>
      let q := atItem dim item q
      addSettings ctx dim item ⟨ds.coords ++ labels q, addVar ds.vars p (toArr q)⟩ rest

/-- `_definition_dict_to_ds` (model_data.py:342-376).  Items of different names have no item of an array in common,
so that merging never disagrees. -/
def defDs (ctx : Ctx V) (dim : String) : DS V → List (Key × Def V) → Except Err (DS V)
  | ds, [] => .ok ds
  | ds, (item, d) :: rest =>
    match addSettings ctx dim item ds (items d) with
    | .error e => .error e
    | .ok ds' => defDs ctx dim ds' rest

/-! ### Technologies at nodes -/

/-- `_get_relevant_node_refs` (model_data.py:284-314): the settings given at a node. -/
def nodeRefs (ctx : Ctx V) : List (Key × Val (Datum V)) → Except Err (List Key)
  | [] => .ok []
  | (_, v) :: rest =>
    match nodeRefs ctx rest, v with
    | .error e, _ => .error e
    | .ok out, .leaf none => .ok out
    | .ok _, .leaf (some _) => .error .attributeError
    | .ok out, .dict d =>
      if active ctx d then
        if d.keys.contains "base_tech" then .error .modelError else .ok (d.keys ++ out)
      else .ok out

/-- The data of one node: its arrays, and which of them are indexed over nodes. -/
structure NodeData (V : Type) where
  node : Label
  ds : DS V
  indexed : List Key

/-- The arrays of a dataset by name. -/
def DS.var (ds : DS V) (n : String) : Option (Arr (Option (Scalar V))) := ds.vars.lookup n

/-- The names of the variables. -/
def DS.names (ds : DS V) : List String := ds.vars.map Prod.fst

/-- `expand_dims("nodes")` of the arrays set at the node and of the carriers (model_data.py:231-238): a missing array
is a `KeyError`, and expanding an array twice a `ValueError`. -/
def expand (refs : List Key) (ds : DS V) : Except Err (List Key) :=
  if refs.any (fun r => !ds.names.contains r) then .error .keyError
  else if ["carrier_in", "carrier_out"].any (fun r => refs.contains r && ds.names.contains r) then .error .valueError
  else .ok (refs ++ ["carrier_in", "carrier_out"].filter (fun r => ds.names.contains r))

/-- The technologies of a node: `node_data.pop("techs")`, `None` for none (model_data.py:205-207). -/
def techsOf (d : Def V) : Except Err (Def V) :=
  match d.get1 "techs" with
  | none => .error .keyError
  | some (.leaf none) => .ok .nil
  | some (.leaf (some _)) => .error .attributeError
  | some (.dict t) => .ok t

/-- One node (model_data.py:204-240).  `union` raises a `KeyError` when a link has the name of a technology of the
node. -/
def nodeData (ctx : Ctx V) (m : Source V) (links : List (LinkAt V)) (node : Key) (d : Def V) :
    Except Err (NodeData V) :=
  match techsOf d with
  | .error e => .error e
  | .ok techs =>
    match nodeRefs ctx (items techs) with
    | .error e => .error e
    | .ok refs =>
      match inheritLoop ctx (inheritTech m) (items techs) with
      | .error e => .error e
      | .ok (defs, _) =>
        if defs.any (fun x => isLink x.2) then .error .modelError
        else if (linksAt links node).any (fun x => (defs.map Prod.fst).contains x.1) then .error .keyError
        else
          match defDs ctx "techs" ⟨[], []⟩ (defs ++ linksAt links node) with
          | .error e => .error e
          | .ok ds =>
            match expand refs ds with
            | .error e => .error e
            | .ok ix => .ok ⟨node, ds, ix⟩

def nodesData (ctx : Ctx V) (m : Source V) (links : List (LinkAt V)) :
    List (Key × Def V) → Except Err (List (NodeData V))
  | [] => .ok []
  | (node, d) :: rest =>
    match nodeData ctx m links node d with
    | .error e => .error e
    | .ok x =>
      match nodesData ctx m links rest with
      | .error e => .error e
      | .ok out => .ok (x :: out)

/-- Arrays of different nodes along a new dimension. -/
def stack (l : List (Label × Arr (Option (Scalar V)))) : Arr (Option (Scalar V)) :=
  let dims := (l.map (fun x => x.2.dims)).foldl joinDims []
  ⟨"nodes" :: dims, fun c =>
    match c with
    | [] => none
    | n :: cs =>
      match l.lookup n with
      | none => none
      | some a => a.val (pick dims cs a.dims)⟩

/-- The arrays of one name over the nodes that have it. -/
def arraysOf (l : List (NodeData V)) (p : String) : List (Label × Arr (Option (Scalar V))) :=
  l.filterMap (fun x => (x.ds.var p).map (fun a => (x.node, a)))

/-- `xr.combine_nested(…, concat_dim="nodes", data_vars="minimal", …)` for one name (model_data.py:242-248): indexed
over nodes when it is so at some node, else one array for all nodes. -/
def combineVar (l : List (NodeData V)) (p : String) : Arr (Option (Scalar V)) :=
  if l.any (fun x => x.indexed.contains p) then stack (arraysOf l p)
  else ((arraysOf l p).map Prod.snd).foldl fill (scalar none)

/-- All names, each once. -/
def allNames (l : List (NodeData V)) : List String := (l.flatMap (fun x => x.ds.names)).dedup

def combine (l : List (NodeData V)) : DS V :=
  ⟨l.map (fun x => ("nodes", x.node)) ++ l.flatMap (fun x => x.ds.coords),
   (allNames l).map (fun p => (p, combineVar l p))⟩

/-- The labels of a dimension. -/
def labelsOf (coords : List (String × Label)) (d : String) : List Label :=
  (coords.filter (fun x => x.1 == d)).map Prod.snd

/-- Two arrays differ at an item that both have. -/
def disagree [DecidableEq V] (coords : String → List Label) (a b : Arr (Option (Scalar V))) : Bool :=
  anyCell coords (zip (fun x y => x.isSome && y.isSome && decide (x ≠ y)) a b)

/-- `xr.merge([node_tech_ds, node_ds])` (model_data.py:251). -/
def mergeNodes [DecidableEq V] (a b : DS V) : Except Err (DS V) :=
  let coords := a.coords ++ b.coords
  if b.vars.any (fun y => match a.var y.1 with
      | none => false
      | some x => disagree (labelsOf coords) x y.2) then .error .valueError
  else .ok ⟨coords, b.vars.foldl (fun vs y => addVar vs y.1 y.2) a.vars⟩

/-- `_add_to_dataset` (model_data.py:560-576): new values over existing ones. -/
def addToDataset (ds new : DS V) : DS V :=
  ⟨new.coords ++ ds.coords, ds.vars.foldl (fun vs y => addVar vs y.1 y.2) new.vars⟩

/-- `dataset.drop_sel` of one label (model_data.py:496-501). -/
def dropLabel (dim : String) (ds : DS V) (l : Label) : DS V :=
  ⟨ds.coords.filter (fun x => x ≠ (dim, l)),
   ds.vars.map (fun x => (x.1, ⟨x.2.dims, fun c =>
    if (x.2.dims.zip c).contains (dim, l) then none else x.2.val c⟩))⟩

/-- `add_node_tech_data` (model_data.py:193-252), on the dataset `ds0` of the data tables. -/
def addNodeTechData [DecidableEq V] (ctx : Ctx V) (m : Source V) (ds0 : DS V) : Except Err (DS V) :=
  match inheritLoop ctx inheritNode (items m.nodes) with
  | .error e => .error e
  | .ok (nodes, offNodes) =>
    let ds1 := offNodes.foldl (dropLabel "nodes") ds0
    match inheritLoop ctx (inheritTech m) (items m.techs) with
    | .error e => .error e
    | .ok (techs, offTechs) =>
      let ds2 := offTechs.foldl (dropLabel "techs") ds1
      match placeLinks ctx (fun n => (nodes.map Prod.fst).contains n || (labelsOf ds1.coords "nodes").contains n)
          techs with
      | .error e => .error e
      | .ok (links, missing) =>
        let ds3 := missing.foldl (dropLabel "techs") ds2
        match nodesData ctx m links nodes with
        | .error e => .error e
        | .ok l =>
          match defDs ctx "nodes" ⟨[], []⟩ (nodes.map (fun x => (x.1, x.2.del1 "techs"))) with
          | .error e => .error e
          | .ok nds =>
            match mergeNodes (combine l) nds with
            | .error e => .error e
            | .ok ds => .ok (addToDataset ds3 ds)

/-- `add_top_level_data_definitions` (model_data.py:254-282). -/
def addDefinitions (ctx : Ctx V) : DS V → List (Key × Val (Datum V)) → Except Err (DS V)
  | ds, [] => .ok ds
  | ds, (p, v) :: rest =>
    match prepare ctx p v with
    | .error e => .error e
    | .ok q => addDefinitions ctx (addToDataset ds ⟨labels q, [(p, toArr q)]⟩) rest

end ModelData
end Calliope
