import Verif.Model.ModelData

/-!
# Model of loading data tables

Source: `/repo/src/calliope/preprocess/data_tables.py`.

Simplifications:
* Reading the CSV file is left out: a table starts as the data frame `Frame`, with the names of its row and column
  levels (`none` for no name or a number), its row and column labels and its cells.
* Labels are texts; the order of rows and the types of values are left out.
* The attributes of the dataset and logging are left out.
-/

namespace Calliope
namespace Tables

open Grid ModelData

/-- A data frame. -/
structure Frame (V : Type) where
  rowNames : List (Option String)
  colNames : List (Option String)
  rowLabels : List (List Label)
  colLabels : List (List Label)
  cells : List (List (Option (Scalar V)))

/-- The definition of a data table (`/repo/src/calliope/schemas/data_table_schema.py:23-62`). -/
structure Table where
  rows : Option (List String)
  columns : Option (List String)
  select : List (String × List Label)
  drop : List String
  addDims : List (String × List Label)
  rename : List (String × String)

/-- A series: the names of the levels of its index, and its rows. -/
structure Tidy (V : Type) where
  names : List (Option String)
  rows : List (List Label × Option (Scalar V))

variable {V : Type}

/-- `_compare_axis_names` (data_tables.py:393-413). -/
def namesDiffer : List (Option String) → List String → Bool
  | some n :: rest, d :: ds => n ≠ d || namesDiffer rest ds
  | none :: rest, _ :: ds => namesDiffer rest ds
  | _, _ => false

/-- The names of one axis (data_tables.py:261-265 and `_rename_axes`, 307-328). -/
def axisNames (rename : List (String × String)) (names : Option (List String)) (loaded : List (Option String)) :
    Except Err (List (Option String)) :=
  match names with
  | none => if loaded.length ≠ 1 then .error .modelError else .ok loaded
  | some ns =>
    if loaded.length ≠ ns.length then .error .modelError
    else if namesDiffer (loaded.map (Option.map (fun n => (rename.lookup n).getD n))) ns then .error .modelError
    else .ok (ns.map some)

/-- The rows of a frame: row labels, column labels, value. -/
def entries (f : Frame V) : List (List Label × List Label × Option (Scalar V)) :=
  (f.rowLabels.zip f.cells).flatMap (fun x => (f.colLabels.zip x.2).map (fun y => (x.1, y.1, y.2)))

/-- Squeezing and stacking (data_tables.py:267-274).  An axis without dimensions is removed if it has one label.  A frame
with neither axis left is a number, which has no `index`. -/
def toTidy (t : Table) (f : Frame V) (rowNames colNames : List (Option String)) : Except Err (Tidy V) :=
  if t.columns.isNone && f.colLabels.length == 1 then
    if t.rows.isNone && f.rowLabels.length == 1 then .error .attributeError
    else .ok ⟨rowNames, (entries f).map (fun x => (x.1, x.2.2))⟩
  else if t.rows.isNone && f.rowLabels.length == 1 then .ok ⟨colNames, (entries f).map (fun x => (x.2.1, x.2.2))⟩
  else .ok ⟨rowNames ++ colNames, ((entries f).filter (fun x => x.2.2.isSome)).map (fun x => (x.1 ++ x.2.1, x.2.2))⟩

/-- The label of a row along a level. -/
def labelAt (names : List (Option String)) (labels : List Label) (n : String) : Option Label :=
  (names.zip labels).lookup (some n)

/-- The labels selected along a level: `none` for all of them. -/
def selection (select : List (String × List Label)) (n : Option String) : Option (List Label) :=
  match n with
  | none => none
  | some n => select.lookup n

/-- Is the label selected along a level? -/
def takes (select : List (String × List Label)) (n : Option String) (l : Label) : Bool :=
  match selection select n with
  | none => true
  | some ls => ls.contains l

/-- Does the selection take this row?  Selections of other levels are ignored. -/
def selected (select : List (String × List Label)) (names : List (Option String)) (labels : List Label) : Bool :=
  (names.zip labels).all (fun x => takes select x.1 x.2)

/-- Is a selected label missing from the level at position `i`? -/
def missing (select : List (String × List Label)) (s : Tidy V) (x : Option String × Nat) : Bool :=
  match selection select x.1 with
  | none => false
  | some ls => ls.any (fun l => !s.rows.any (fun r => r.1[x.2]? == some l))

/-- `tdf.loc[selector]` (data_tables.py:276-285): a label that does not occur is a `KeyError`.  Listing the same label twice
is left out. -/
def selectRows (select : List (String × List Label)) (s : Tidy V) : Except Err (Tidy V) :=
  if s.names.zipIdx.any (missing select s) then .error .keyError
  else .ok ⟨s.names, s.rows.filter (fun r => selected select s.names r.1)⟩

/-- Is the level kept? -/
def keepLevel (drop : List String) (n : Option String) : Bool :=
  match n with
  | none => true
  | some n => !drop.contains n

/-- `tdf.droplevel(drop)` (data_tables.py:287-288): a level must be there, once, and one must be left. -/
def dropLevels (drop : List String) (s : Tidy V) : Except Err (Tidy V) :=
  if drop.any (fun d => !s.names.contains (some d)) then .error .keyError
  else if drop.any (fun d => s.names.count (some d) ≠ 1) then .error .valueError
  else if !s.names.any (keepLevel drop) then .error .valueError
  else .ok ⟨s.names.filter (keepLevel drop),
    s.rows.map (fun r => (((s.names.zip r.1).filter (fun x => keepLevel drop x.1)).map Prod.snd, r.2))⟩

/-- `pd.concat([tdf for _ in index_items], keys=index_items, names=[dim_name])` (data_tables.py:290-295). -/
def addDims : List (String × List Label) → Tidy V → Except Err (Tidy V)
  | [], s => .ok s
  | (n, items) :: rest, s =>
    if items.isEmpty then .error .valueError
    else addDims rest ⟨some n :: s.names, items.flatMap (fun l => s.rows.map (fun r => (l :: r.1, r.2)))⟩

/-- Do two rows have the same labels? -/
def duplicated (rows : List (List Label × Option (Scalar V))) : Bool := !decide (rows.map Prod.fst).Nodup

/-- `_check_processed_tdf` and `_check_for_protected_params` (data_tables.py:347-361 and 330-345); `isProtected` names the inputs that may
not be in tables (`/repo/src/calliope/config/protected_parameters.yaml`). -/
def check (isProtected : String → Bool) (s : Tidy V) : Except Err Unit :=
  if !s.names.contains (some "inputs") then .error .modelError
  else if duplicated s.rows then .error .modelError
  else if !decide s.names.Nodup then .error .modelError
  else if s.rows.any (fun r => match labelAt s.names r.1 "inputs" with | none => false | some p => isProtected p) then
    .error .modelError
  else .ok ()

/-- The names `to_xarray` gives to the levels: `index`, or `level_0`, `level_1`, ... where there is none. -/
def dimName (single : Bool) : Nat → List (Option String) → List String
  | _, [] => []
  | i, some n :: rest => n :: dimName single (i + 1) rest
  | i, none :: rest => (if single then "index" else "level_" ++ toString i) :: dimName single (i + 1) rest

/-- The labels of a row other than the input. -/
def others (names : List (Option String)) (labels : List Label) : List Label :=
  ((names.zip labels).filter (fun x => x.1 ≠ some "inputs")).map Prod.snd

/-- `tdf.unstack("inputs").to_xarray()` (data_tables.py:299-302). -/
def toDataset (s : Tidy V) : DS V :=
  let levels := s.names.filter (fun n => n ≠ some "inputs")
  let dims := dimName (levels.length == 1) 0 levels
  ⟨s.rows.flatMap (fun r => dims.zip (others s.names r.1)),
   (s.rows.filterMap (fun r => labelAt s.names r.1 "inputs")).dedup.map (fun p =>
    (p, ⟨dims, fun c =>
      match s.rows.find? (fun r => labelAt s.names r.1 "inputs" == some p && others s.names r.1 == c) with
      | none => none
      | some r => r.2⟩))⟩

/-- The steps of a table after stacking. -/
def process (t : Table) (s : Tidy V) : Except Err (Tidy V) :=
  match selectRows t.select s with
  | .error e => .error e
  | .ok s1 =>
    match (if t.drop.isEmpty then Except.ok s1 else dropLevels t.drop s1) with
    | .error e => .error e
    | .ok s2 => addDims t.addDims s2

/-- `_df_to_ds` (data_tables.py:236-305). -/
def load (isProtected : String → Bool) (t : Table) (f : Frame V) : Except Err (DS V) :=
  match axisNames t.rename t.columns f.colNames with
  | .error e => .error e
  | .ok cs =>
    match axisNames t.rename t.rows f.rowNames with
    | .error e => .error e
    | .ok rs =>
      match toTidy t f rs cs with
      | .error e => .error e
      | .ok s =>
        match process t s with
        | .error e => .error e
        | .ok s' =>
          match check isProtected s' with
          | .error e => .error e
          | .ok () => .ok (toDataset s')

/-! ### What tables say about technologies and nodes -/

/-- The technologies for which a variable over nodes and technologies has a value at node `n` (data_tables.py:107-126). -/
def techsAt (ds : DS V) (n : Label) : List Label :=
  (labelsOf ds.coords "techs").dedup.filter (fun t => ds.vars.any (fun x =>
    x.2.dims.contains "nodes" && x.2.dims.contains "techs" &&
      anyCell (fun d => if d = "nodes" then [n] else if d = "techs" then [t] else labelsOf ds.coords d)
        (map Option.isSome x.2)))

/-- The check of each technology (data_tables.py:127-134): `techs_incl_inheritance[tech].get("base_tech")`.  `link t` says
whether technology `t` is a link, and is `none` if `t` is not among the definitions passed in. -/
def checkTechs (link : Label → Option Bool) : List Label → Except Err Unit
  | [] => .ok ()
  | t :: ts =>
    match link t with
    | none => .error .keyError
    | some true => .error .modelError
    | some false => checkTechs link ts

/-- `node_dict` (data_tables.py:95-138) for a node: its technologies. -/
def nodeTechs (ds : DS V) (link : Label → Option Bool) (n : Label) : Except Err (List Label) :=
  match checkTechs link (techsAt ds n) with
  | .error e => .error e
  | .ok () => .ok (techsAt ds n)

/-- `lookup_dict_from_param` (data_tables.py:140-213) for a technology: the labels of `dim` for which the lookup is given;
any value counts.  The order is left out. -/
def lookupLabels (ds : DS V) (param dim : String) (t : Label) : Except Err (List Label) :=
  match ds.vars.lookup param with
  | none => .ok []
  | some a =>
    if !a.dims.contains "techs" || !a.dims.contains dim then .error .modelError
    else .ok ((labelsOf ds.coords dim).dedup.filter (fun l =>
      anyCell (fun d => if d = dim then [l] else if d = "techs" then [t] else labelsOf ds.coords d)
        (map Option.isSome a)))

end Tables
end Calliope
