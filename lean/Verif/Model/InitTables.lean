import Verif.Model.Tables

/-!
# The model definition from data tables (`ModelDataBuilder.init_from_data_tables`)

Models `/repo/src/calliope/preprocess/model_data.py` lines 153-191, with `DataTable.tech_dict`, `DataTable.node_dict` and
`DataTable.lookup_dict_from_param` of `/repo/src/calliope/preprocess/data_tables.py` lines 76-213.

Simplifications: labels are names without dots; the order of the labels of a lookup is left out.  The code runs through the
tables three times; here each of the things done in a pass has a loop of its own, so that if several of them fail, it may be
another of the errors that is raised.
-/

namespace Calliope
namespace Tables

open Grid ModelData

variable {V : Type}

/-- `{k: {} for k in …}` (data_tables.py:84-86). -/
def skeleton : List Label → Dict (Datum V)
  | [] => .nil
  | l :: ls => .sub l .nil (skeleton ls)

/-- The technologies of a table (data_tables.py:84-86). -/
def techDict (ds : DS V) : Dict (Datum V) := skeleton (labelsOf ds.coords "techs").dedup

/-- `{t: {p: value}}` for those `t` that have a value. -/
def settingDict (p : String) (g : Label → Option (Datum V)) : List Label → Dict (Datum V)
  | [] => .nil
  | t :: ts =>
    match g t with
    | none => settingDict p g ts
    | some x => .sub t (.leaf p (some x) .nil) (settingDict p g ts)

/-- `self.dataset[param].to_dataframe().dropna().T.to_dict()` as a dictionary (data_tables.py:90-91): if the input has several dimensions, the
keys are tuples, which dictionaries of this class cannot list. -/
def baseDict (ds : DS V) (p : String) : Except Err (Dict (Datum V)) :=
  match ds.vars.lookup p with
  | none => .ok .nil
  | some a =>
    match a.dims with
    | [] => .error .valueError
    | [d] => .ok (settingDict p (fun t => (a.val [t]).map .one) (labelsOf ds.coords d).dedup)
    | _ => if anyCell (labelsOf ds.coords) (map Option.isSome a) then .error .typeError else .ok .nil

/-- The labels of a lookup as a setting (data_tables.py:180-189). -/
def labelsDatum : List Label → Option (Datum V)
  | [] => none
  | [l] => some (.one (.str l))
  | ls => some (.list (ls.map (fun l => some (.str l))))

/-- The lookup of a technology. -/
def lookupDatum (ds : DS V) (p dim : String) (t : Label) : Option (Datum V) :=
  match lookupLabels ds p dim t with
  | .error _ => none
  | .ok ls => labelsDatum ls

/-- `lookup_dict_from_param` (data_tables.py:140-213). -/
def lookupDict (ds : DS V) (p dim : String) : Except Err (Dict (Datum V)) :=
  match ds.vars.lookup p with
  | none => .ok .nil
  | some a =>
    if !a.dims.contains "techs" || !a.dims.contains dim then .error .modelError
    else .ok (settingDict p (lookupDatum ds p dim) (labelsOf ds.coords "techs").dedup)

/-- `{t: None}` for each technology. -/
def noneDict : List Label → Dict (Datum V)
  | [] => .nil
  | t :: ts => .leaf t none (noneDict ts)

/-- The loop over the nodes of a table (data_tables.py:120-136). -/
def nodeLoop (ds : DS V) (link : Label → Option Bool) : List Label → Except Err (Dict (Datum V))
  | [] => .ok .nil
  | n :: ns =>
    match nodeTechs ds link n with
    | .error e => .error e
    | .ok ts =>
      match nodeLoop ds link ns with
      | .error e => .error e
      | .ok d => .ok (.sub n (.sub "techs" (noneDict ts) .nil) d)

/-- `node_dict` (data_tables.py:95-138). -/
def nodeDict (ds : DS V) (link : Label → Option Bool) : Except Err (Dict (Datum V)) :=
  if ds.vars.any (fun x => x.2.dims.contains "nodes" && x.2.dims.contains "techs") then
    nodeLoop ds link (labelsOf ds.coords "nodes").dedup
  else .ok .nil

/-- The loop that puts what is defined so far over what the tables name (model_data.py:162-167 and 171-176). -/
def initDefs (f : DS V → Except Err (Dict (Datum V))) : List (DS V) → Dict (Datum V) → Except Err (Dict (Datum V))
  | [], d => .ok d
  | ds :: rest, d =>
    match f ds with
    | .error e => .error e
    | .ok s =>
      match s.union d true with
      | .error e => .error e
      | .ok d' => initDefs f rest d'

/-- The loop that collects technology data; nothing may be given twice (model_data.py:168,180-181; data_tables.py:88-91). -/
def collect : List (Except Err (Dict (Datum V))) → Dict (Datum V) → Except Err (Dict (Datum V))
  | [], d => .ok d
  | .error e :: _, _ => .error e
  | .ok s :: rest, d =>
    match d.union s false with
    | .error e => .error e
    | .ok d' => collect rest d'

/-- `PARAMS_TO_INITIALISE_YAML` (data_tables.py:29). -/
def baseInputs : List String := ["base_tech", "link_to", "link_from"]

/-- Is the technology a link?  `none` if it is not among the inherited definitions. -/
def linkOf (defs : List (Key × Def V)) (t : Label) : Option Bool := (defs.lookup t).map isLink

/-- `data_table.drop(param)` for each lookup (model_data.py:182; data_tables.py:67-74). -/
def withoutLookups (lookups : List (String × String)) (ds : DS V) : DS V :=
  ⟨ds.coords, ds.vars.filter (fun x => !(lookups.map Prod.fst).contains x.1)⟩

/-- `init_from_data_tables` (model_data.py:153-191).  `lookups`: the lookups of the math with the dimension they pivot to.  `m` is what is
written in YAML; technology data of tables starts empty (model_data.py:141). -/
def initTables (ctx : Ctx V) (lookups : List (String × String)) (tables : List (DS V)) (m : Source V) :
    Except Err (Source V × DS V) :=
  match initDefs (fun ds => .ok (techDict ds)) tables m.techs with
  | .error e => .error e
  | .ok techs =>
    match collect (tables.flatMap (fun ds => baseInputs.map (baseDict ds))) .nil with
    | .error e => .error e
    | .ok base =>
      match inheritLoop ctx (inheritTech ⟨techs, m.nodes, base⟩) (items techs) with
      | .error e => .error e
      | .ok (defs, _) =>
        match initDefs (fun ds => nodeDict ds (linkOf defs)) tables m.nodes with
        | .error e => .error e
        | .ok nodes =>
          match collect (tables.flatMap (fun ds => lookups.map (fun l => lookupDict ds l.1 l.2))) base with
          | .error e => .error e
          | .ok data =>
            .ok (⟨techs, nodes, data⟩,
              (tables.map (withoutLookups lookups)).foldl addToDataset
                ⟨nodes.keys.map (fun n => ("nodes", n)) ++ techs.keys.map (fun t => ("techs", t)), []⟩)

end Tables
end Calliope
