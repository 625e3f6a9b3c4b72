import Mathlib.Data.List.Dedup
import Verif.Model.ModelData

/-!
# Model of cleaning the model inputs

Source: `/repo/src/calliope/preprocess/model_data.py:647-909` (`ModelDataCleaner`).

Simplifications:
* Datasets as in `Verif/Model/ModelData.lean`; a label occurs once in a coordinate (`labelsU`).
* Of the conversion of data types (model_data.py:62-117) only that to booleans is modelled, as the others change no
  value into a missing one or back.
* Selections of ordered dimensions, which are slices (model_data.py:889-890), are given as the labels they select
  (`/verif/lean/Verif/Model/Time.lean` models the slices of dates).
* Distances between nodes are given by a function.
-/

namespace Calliope
namespace Clean

open Grid ModelData

/-- What matters of the math, which inputs are booleans, and of numbers, which are not zero. -/
structure Types (V : Type) where
  isBool : String → Bool
  nonzero : V → Bool

variable {V : Type}

/-- The labels of a dimension, each once. -/
def labelsU (coords : List (String × Label)) (d : String) : List Label := (labelsOf coords d).dedup

/-- `bool(x)`, false when missing: `var_data.fillna(False).astype(bool)` (model_data.py:109-110). -/
def toBool (T : Types V) (x : Option (Scalar V)) : Bool :=
  match x with
  | none => false
  | some (.bool b) => b
  | some (.num v) => T.nonzero v
  | some (.str s) => !s.isEmpty

/-- `_update_dtypes` (model_data.py:62-117). -/
def updateTypes (T : Types V) (ds : DS V) : DS V :=
  ⟨ds.coords, ds.vars.map (fun x =>
    (x.1, if T.isBool x.1 then map (fun v => some (.bool (toBool T v))) x.2 else x.2))⟩

/-- `ds.carrier_in | ds.carrier_out` (model_data.py:707). -/
def defMatrix (T : Types V) (ds : DS V) : Except Err (Arr Bool) :=
  match ds.var "carrier_in", ds.var "carrier_out" with
  | some a, some b => .ok (zip (fun x y => toBool T x || toBool T y) a b)
  | _, _ => .error .attributeError

/-- One variable (model_data.py:709-716): `where(def_matrix.any(non_dims))`, `False` where a boolean is missing. -/
def mask (T : Types V) (coords : String → List Label) (dm : Arr Bool) (p : String) (a : Arr (Option (Scalar V))) :
    Arr (Option (Scalar V)) :=
  let nonDims := dm.dims.filter (fun d => !a.dims.contains d)
  let cond := reduce coords (fun l => l.any id) nonDims dm
  let out := zip (fun v b => if b then v else none) a cond
  if T.isBool p then map (fun v => some (.bool (toBool T v))) out else out

/-- Is anything defined for this label? -/
def anyDefined (coords : String → List Label) (dm : Arr Bool) (dim : String) (l : Label) : Bool :=
  (reduce coords (fun l => l.any id) (dm.dims.filter (fun d => d ≠ dim)) dm).at (fun _ => l)

/-- `ds.dropna(dim, how="all", subset=["definition_matrix"])` (model_data.py:830). -/
def dropNa (dm : Arr Bool) (ds : DS V) (dim : String) : DS V :=
  ((labelsU ds.coords dim).filter (fun l => !anyDefined (labelsU ds.coords) dm dim l)).foldl (dropLabel dim) ds

/-- `ds[name] = array`. -/
def putVar (vars : List (String × Arr (Option (Scalar V)))) (n : String) (a : Arr (Option (Scalar V))) :
    List (String × Arr (Option (Scalar V))) :=
  (vars.filter (fun x => x.1 ≠ n)) ++ [(n, a)]

/-- `var.isnull().all()` (model_data.py:841). -/
def empty (coords : String → List Label) (a : Arr (Option (Scalar V))) : Bool :=
  !anyCell coords (map Option.isSome a)

/-- `_drop_undefined` (model_data.py:812-845).  The definition matrix is stored before labels are dropped, in its boolean
form (model_data.py:827,838). -/
def dropUndefined (ds : DS V) (dm : Arr Bool) : DS V :=
  let out := dm.dims.foldl (dropNa dm) ⟨ds.coords, putVar ds.vars "definition_matrix" (map (fun b => some (.bool b)) dm)⟩
  ⟨out.coords, out.vars.filter (fun x => !empty (labelsU out.coords) x.2)⟩

/-- `clean_data_from_undefined_members` (model_data.py:699-718). -/
def cleanUndefined (T : Types V) (ds : DS V) : Except Err (DS V) :=
  let ds1 := updateTypes T ds
  match defMatrix T ds1 with
  | .error e => .error e
  | .ok dm => .ok (dropUndefined ⟨ds1.coords, ds1.vars.map (fun x => (x.1, mask T (labelsU ds1.coords) dm x.1 x.2))⟩ dm)

/-! ### Subsets -/

/-- `dataset.sel(**selectors)` for one dimension (model_data.py:894): a `KeyError` for a label that is not there. -/
def selectDim (ds : DS V) (dim : String) (keep : List Label) : Except Err (DS V) :=
  if keep.all (fun l => (labelsU ds.coords dim).contains l) then
    .ok (((labelsU ds.coords dim).filter (fun l => !keep.contains l)).foldl (dropLabel dim) ds)
  else .error .keyError

/-- All selections; those of dimensions that are not there are skipped (model_data.py:877-882). -/
def selectDims : DS V → List (String × List Label) → Except Err (DS V)
  | ds, [] => .ok ds
  | ds, (dim, keep) :: rest =>
    if labelsU ds.coords dim = [] then selectDims ds rest
    else
      match selectDim ds dim keep with
      | .error e => .error e
      | .ok ds' => selectDims ds' rest

/-- How many of the values are true: `.sum("nodes")`. -/
def count (l : List Bool) : Nat := l.countP id

/-- Is the base technology of this technology `transmission`? (model_data.py:899) -/
def isTransmission (ds : DS V) (t : Label) : Bool :=
  match ds.var "base_tech" with
  | none => false
  | some a =>
    match a.at (fun _ => t) with
    | some (.str s) => s == "transmission"
    | _ => false

/-- The technologies with a `1` in `definition_matrix.sum("nodes")` (model_data.py:897-904). -/
def hangingLinks (ds : DS V) (dm : Arr Bool) : List Label :=
  let sums := reduce (labelsU ds.coords) count ["nodes"] dm
  let ones := map (fun n => n == 1) sums
  (labelsU ds.coords "techs").filter (fun t => isTransmission ds t &&
    (reduce (labelsU ds.coords) (fun l => l.any id) (ones.dims.filter (fun d => d ≠ "techs")) ones).at (fun _ => t))

def isTrue : Option (Scalar V) → Bool
  | some (.bool b) => b
  | _ => false

/-- The stored definition matrix. -/
def storedMatrix (ds : DS V) : Except Err (Arr Bool) :=
  match ds.var "definition_matrix" with
  | none => .error .attributeError
  | some a => .ok (map isTrue a)

/-- `_subset_dims` (model_data.py:866-909). -/
def subsetDims (ds : DS V) (sel : List (String × List Label)) : Except Err (DS V) :=
  match selectDims ds sel with
  | .error e => .error e
  | .ok ds1 =>
    match storedMatrix ds1 with
    | .error e => .error e
    | .ok dm =>
      if (ds1.var "base_tech").isNone then .error .attributeError
      else .ok (dropUndefined ((hangingLinks ds1 dm).foldl (dropLabel "techs") ds1) dm)

/-! ### Colours and distances -/

/-- `_DEFAULT_PALETTE` (model_data.py:651-662). -/
def palette : List String :=
  ["#19122b", "#17344c", "#185b48", "#3c7632", "#7e7a36", "#bc7967", "#d486af", "#caa9e7", "#c2d2f3", "#d6f0ef"]

/-- A palette entry for each technology, cycling (model_data.py:728-732). -/
def cycled {α : Type} (pal : List α) : Nat → List Label → List (Label × Option α)
  | _, [] => []
  | i, t :: ts => (t, pal[i % pal.length]?) :: cycled pal (i + 1) ts

/-- `add_colors` (model_data.py:720-740), `color` being the colour variable. -/
def addColors (pal : List String) (techs : List Label) (color : Option (Arr (Option (Scalar V)))) :
    Arr (Option (Scalar V)) :=
  let fresh : Arr (Option (Scalar V)) := ⟨["techs"], fun c =>
    match c with
    | [t] => ((cycled pal 0 techs).lookup t).join.map (fun s => .str s)
    | _ => none⟩
  match color with
  | none => fresh
  | some a => zip (fun x y => x.or y) a fresh

/-- The nodes of a technology (model_data.py:757-760). -/
def nodesOf (coords : String → List Label) (dm : Arr Bool) (t : Label) : List Label :=
  (coords "nodes").filter (fun n =>
    (reduce coords (fun l => l.any id) ["carriers"] dm).at (fun d => if d = "techs" then t else n))

/-- The distances of the links (model_data.py:753-761): unpacking other than two nodes is a `ValueError`. -/
def linkDistances (coords : String → List Label) (dm : Arr Bool) (dist : Label → Label → V) (link : Label → Bool) :
    List Label → Except Err (List (Label × V))
  | [] => .ok []
  | t :: ts =>
    if link t then
      match nodesOf coords dm t with
      | [a, b] =>
        match linkDistances coords dm dist link ts with
        | .error e => .error e
        | .ok out => .ok ((t, dist a b) :: out)
      | _ => .error .valueError
    else linkDistances coords dm dist link ts

/-- `add_link_distances` (model_data.py:742-780): `given` the distance variable; `known` if latitude and longitude are
there.  `dist` includes the conversion to kilometres. -/
def addDistances (coords : String → List Label) (dm : Arr Bool) (dist : Label → Label → V) (link : Label → Bool)
    (known : Bool) (given : Option (Arr (Option (Scalar V)))) : Except Err (Option (Arr (Option (Scalar V)))) :=
  if known && (coords "techs").any link then
    match linkDistances coords dm dist link (coords "techs") with
    | .error e => .error e
    | .ok ds =>
      let fresh : Arr (Option (Scalar V)) := ⟨["techs"], fun c =>
        match c with
        | [t] => (ds.lookup t).map (fun v => .num v)
        | _ => none⟩
      .ok (some (match given with
        | none => fresh
        | some a => zip (fun x y => x.or y) a fresh))
  else .ok given

end Clean
end Calliope
