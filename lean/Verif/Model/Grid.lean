/-!
# Model of labelled arrays

The parts of `xarray.DataArray` that math evaluation uses: arrays over named dimensions, whose cells
are addressed by one label per dimension, in the order of the array's dimensions.

Simplifications: all arrays of one model share the coordinates `coords` of each dimension, as they are
variables of one `xarray.Dataset` (`/repo/src/calliope/backend/backend_model.py:574-598`), so that
aligning two arrays never drops labels; labels are strings; `val` is defined (with irrelevant values)
for label lists that are no cell of the array.
-/

namespace Calliope
namespace Grid

abbrev Label := String

/-- A labelled array. -/
structure Arr (V : Type) where
  dims : List String
  val : List Label → V

variable {U V W : Type}

/-- The cell of the array at an assignment of labels to all dimensions of the model. -/
def Arr.at (a : Arr V) (ρ : String → Label) : V := a.val (a.dims.map ρ)

/-- From the labels `c` of the dimensions `dims`, those of the dimensions `want`. -/
def pick (dims : List String) (c : List Label) (want : List String) : List Label :=
  want.map (fun d => ((dims.zip c).lookup d).getD "")

/-- `xr.DataArray(v)`. -/
def scalar (v : V) : Arr V := ⟨[], fun _ => v⟩

/-- An operation on every cell, such as `~a` or `a.notnull()`. -/
def map (f : V → W) (a : Arr V) : Arr W := ⟨a.dims, fun c => f (a.val c)⟩

/-- The dimensions of the result of a binary operation. -/
def joinDims (a b : List String) : List String := a ++ b.filter (fun d => !a.contains d)

/-- A binary operation, with broadcasting by dimension name. -/
def zip (f : U → V → W) (a : Arr U) (b : Arr V) : Arr W :=
  ⟨joinDims a.dims b.dims, fun c =>
    f (a.val (pick (joinDims a.dims b.dims) c a.dims))
      (b.val (pick (joinDims a.dims b.dims) c b.dims))⟩

/-- All cells over some dimensions, the first dimension varying slowest. -/
def cells (coords : String → List Label) : List String → List (List Label)
  | [] => [[]]
  | d :: ds => (coords d).flatMap (fun l => (cells coords ds).map (fun c => l :: c))

/-- `a.sum(over)`, `a.any(over)`, ...: `f` of the values along the dimensions `over` of the array. -/
def reduce (coords : String → List Label) (f : List V → W) (over : List String) (a : Arr V) : Arr W :=
  let kept := a.dims.filter (fun d => !over.contains d)
  let gone := a.dims.filter (fun d => over.contains d)
  ⟨kept, fun c => f ((cells coords gone).map (fun g => a.val (pick (kept ++ gone) (c ++ g) a.dims)))⟩

/-- `a.transpose(*sets)`: `none` (an exception) unless `sets` are the dimensions of the array. -/
def transpose (sets : List String) (a : Arr V) : Option (Arr V) :=
  if a.dims.all (sets.contains ·) && sets.all (a.dims.contains ·) then
    some ⟨sets, fun c => a.val (pick sets c a.dims)⟩
  else none

/-- `a.any()`: over all cells. -/
def anyCell (coords : String → List Label) (a : Arr Bool) : Bool :=
  (reduce coords (fun l => l.any id) a.dims a).val []

end Grid
end Calliope
