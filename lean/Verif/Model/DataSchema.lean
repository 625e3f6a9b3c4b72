import Verif.Model.AttrName
import Verif.Model.ModelData

/-!
# Model of the validation of input data in the model definition

Source: `/repo/src/calliope/schemas/dimension_data_schema.py:20-63` and `90-112`, `/repo/src/calliope/schemas/general.py:23-46`.

Simplifications:
* An integer and a float of the same value are one label, as they are for Python's sets; NaN is left out.
* Truth values as labels (which pydantic turns into numbers) are left out.
* A single name under `dims` is a list of one.
-/

namespace Calliope
namespace DataSchema

open ModelData (Scalar Datum Def)

/-- `IndexValue` (dimension_data_schema.py:20). -/
inductive Lab (V : Type) where
  | str (s : String)
  | num (v : V)
  deriving DecidableEq

/-- An element of the list under `index` (dimension_data_schema.py:42). -/
inductive Entry (V : Type) where
  | one (x : Lab V)
  | list (xs : List (Lab V))
  deriving DecidableEq

/-- What is under `index`. -/
inductive Index (V : Type) where
  | one (x : Lab V)
  | list (xs : List (Entry V))

/-- What is under `data` (dimension_data_schema.py:30). -/
inductive Data (V : Type) where
  | one (x : Option (Scalar V))
  | list (xs : List (Option (Scalar V)))

/-- Indexed data (dimension_data_schema.py:25-46). -/
structure Definition (V : Type) where
  data : Data V
  dims : List String
  index : Index V

variable {V : Type}

/-- Is it a list? -/
def Entry.isList : Entry V → Bool
  | .one _ => false
  | .list _ => true

/-- `tuple(i)`: a text is a list of texts of one character; a number is a `TypeError` (general.py:27). -/
def Entry.tuple : Entry V → Option (List (Lab V))
  | .one (.str s) => some (s.toList.map (fun c => .str (String.ofList [c])))
  | .one (.num _) => none
  | .list xs => some xs

section
variable [DecidableEq V]

/-- `_validate_unique_list` (general.py:23-30) for the entries of an index: `set(v)` is a `TypeError` if there is a
list. -/
def uniqueEntries (es : List (Entry V)) : Except Err Unit :=
  if es.any Entry.isList then
    if es.any (fun e => e.tuple.isNone) then .error .typeError
    else if decide (es.map Entry.tuple).Nodup then .ok () else .error .valueError
  else if decide es.Nodup then .ok () else .error .valueError

/-- `NonEmptyUniqueList[IndexValue]` (dimension_data_schema.py:42). -/
def entryOk : Entry V → Bool
  | .one _ => true
  | .list xs => !xs.isEmpty && decide xs.Nodup

/-- The check of `index` (dimension_data_schema.py:42). -/
def checkIndex : Index V → Except Err Unit
  | .one _ => .ok ()
  | .list es =>
    if !es.all entryOk then .error .valueError
    else match uniqueEntries es with
      | .error e => .error e
      | .ok () => if es.isEmpty then .error .valueError else .ok ()

/-- `NonEmptyList[DataValue]` (dimension_data_schema.py:30). -/
def dataOk : Data V → Bool
  | .one _ => true
  | .list xs => !xs.isEmpty

/-- `check_dims` (dimension_data_schema.py:54-63): for technologies and nodes only. -/
def forbiddenDims (dims : List String) : Bool := dims.any (fun d => d == "techs" || d == "nodes")

/-- `AttrStr | NonEmptyUniqueList[AttrStr]` (dimension_data_schema.py:36). -/
def dimsOk (k : Grammar.Classes) (dims : List String) : Bool :=
  !dims.isEmpty && dims.all (fun d => Grammar.attrStr k d.toList) && decide dims.Nodup

/-- `IndexedData` (`item = false`, dimension_data_schema.py:25-46) and `IndexedTechNodeParam` (`item = true`, 49-63): data,
dims and index in turn; a `TypeError` is not collected with other errors. -/
def validate (k : Grammar.Classes) (item : Bool) (d : Definition V) : Except Err Unit :=
  match checkIndex d.index with
  | .error .typeError => .error .typeError
  | .error _ => .error .valueError
  | .ok () =>
    if !dataOk d.data || (item && forbiddenDims d.dims) || !dimsOk k d.dims then .error .valueError else .ok ()

end

/-! ### The same definition as it is loaded -/

def Lab.scalar : Lab V → Scalar V
  | .str s => .str s
  | .num v => .num v

def Entry.scalars : Entry V → List (Scalar V)
  | .one x => [x.scalar]
  | .list xs => xs.map Lab.scalar

/-- `[listify(idx) for idx in listify(index)]` (model_data.py:396). -/
def Index.datum : Index V → Datum V
  | .one x => .lists [[x.scalar]]
  | .list es => .lists (es.map Entry.scalars)

def Data.datum : Data V → Option (Datum V)
  | .one none => none
  | .one (some x) => some (.one x)
  | .list xs => some (.list xs)

/-- The dictionary that is loaded (model_data.py:393-404). -/
def Definition.toDef (d : Definition V) : Def V :=
  .leaf "data" d.data.datum (.leaf "index" (some d.index.datum)
    (.leaf "dims" (some (.list (d.dims.map (fun n => some (.str n))))) .nil))

/-! ### Nodes -/

/-- `NumericVal | None`: integers and floats (dimension_data_schema.py:94-97). -/
inductive Coord where
  | none
  | int (i : Int)
  | flt (q : Rat)
  deriving DecidableEq

/-- `ge=-b, le=b`. -/
def Coord.within (b : Rat) : Coord → Bool
  | .none => true
  | .int i => decide (-b ≤ (i : Rat)) && decide ((i : Rat) ≤ b)
  | .flt q => decide (-b ≤ q) && decide (q ≤ b)

/-- `type(self.latitude) is type(self.longitude)` (dimension_data_schema.py:106). -/
def Coord.sameType : Coord → Coord → Bool
  | .none, .none => true
  | .int _, .int _ => true
  | .flt _, .flt _ => true
  | _, _ => false

/-- The coordinates of a node (dimension_data_schema.py:94-97 and 103-112). -/
def validateNode (lat lon : Coord) : Except Err Unit :=
  if !lat.within 90 || !lon.within 180 then .error .valueError
  else if !lat.sameType lon then .error .valueError
  else .ok ()

end DataSchema
end Calliope
