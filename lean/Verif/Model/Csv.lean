import Verif.Model.Clean

/-!
# Model of saving a model to CSV files

Source: `/repo/src/calliope/io.py:183-221`, `/repo/src/calliope/model.py:425-448`.

Simplifications:
* A CSV file is a header and rows of labels with a value; how pandas prints numbers, and quoting, are not modelled.
* At the path there is nothing, something that is not a directory, or a directory of files.  Parents of the path are there
  or are created.
* Writing a file happens as a whole or not at all.
-/

namespace Calliope
namespace Csv

open Grid ModelData Clean

variable {V A : Type}

/-- A CSV file: the names of the label columns (none if the index is not written) and the rows. -/
structure Table (V : Type) where
  header : List String
  rows : List (List Label × Option (ModelData.Scalar V))

/-- The content of a file. -/
inductive Content (V A : Type) where
  | csv (t : Table V)
  | yaml (a : A)
  | other (s : String)

/-- What is at a path. -/
inductive Entry (V A : Type) where
  | absent
  | notDir
  | dir (files : List (String × Content V A))

/-- `series = var.to_series()`, or of the one item of a scalar, then `dropna` (io.py:213-220): a row for each combination
of labels, the last dimension varying fastest. -/
def table (coords : String → List Label) (dropna : Bool) (a : Arr (Option (ModelData.Scalar V))) : Table V :=
  ⟨a.dims, ((cells coords a.dims).map (fun c => (c, a.val c))).filter (fun r => !dropna || r.2.isSome)⟩

/-- `path.mkdir(parents=True, exist_ok=allow_overwrite)` (io.py:209): `FileExistsError`, an `OSError`, if there is
something, unless it is a directory and that is allowed. -/
def mkdir (overwrite : Bool) : Entry V A → Except Unit (List (String × Content V A))
  | .absent => .ok []
  | .notDir => .error ()
  | .dir files => if overwrite then .ok files else .error ()

/-- A file is written. -/
def write (files : List (String × Content V A)) (name : String) (c : Content V A) : List (String × Content V A) :=
  files.filter (fun x => x.1 ≠ name) ++ [(name, c)]

/-- `f"{group_name}_{var_name}.csv"` (io.py:212). -/
def fileName (group var : String) : String := group ++ "_" ++ var ++ ".csv"

/-- The files of a dataset (io.py:211-221). -/
def filesOf (group : String) (dropna : Bool) (ds : DS V) : List (String × Content V A) :=
  ds.vars.map (fun x => (fileName group x.1, .csv (table (labelsU ds.coords) dropna x.2)))

/-- All files of `to_csv` (model.py:441-448), in order: inputs, results if there are any, attributes. -/
def plan (inputs results : DS V) (attrs : A) (dropna : Bool) : List (String × Content V A) :=
  filesOf "inputs" dropna inputs ++ (if results.vars.isEmpty then [] else filesOf "results" dropna results) ++
    [("attrs.yaml", .yaml attrs)]

/-- `Model.to_csv` (model.py:425-448) to a path where `e` is, stopped after `k` files: what is there then, and whether
`FileExistsError` was raised.  (The `mkdir` for the results finds the directory and is allowed to, line 444.) -/
def toCsv (inputs results : DS V) (attrs : A) (dropna overwrite : Bool) (e : Entry V A) (k : Nat) :
    Entry V A × Bool :=
  match mkdir overwrite e with
  | .error _ => (e, true)
  | .ok files => (.dir (((plan inputs results attrs dropna).take k).foldl (fun fs f => write fs f.1 f.2) files), false)

end Csv
end Calliope
