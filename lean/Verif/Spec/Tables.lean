import Verif.Model.Tables
import Verif.Spec.ModelData

/-!
# Specification vocabulary for data tables

A data table is a grid of cells.  `Cell f i j r c v`: the cell in line `i` and column `j` of the frame, with row labels `r`
and column labels `c`, has the value `v`.  `Says t f i j p ρ v`: read by the definition `t` of the table, this cell gives the
input `p` the value `v` at the labels `ρ`.
-/

namespace Calliope
namespace Tables

open Grid ModelData

variable {V : Type}

/-- The cell in line `i`, column `j` has row labels `r`, column labels `c` and the value `v` (`none` if it is empty). -/
def Cell (f : Frame V) (i j : Nat) (r c : List Label) (v : Option (Scalar V)) : Prop :=
  f.rowLabels[i]? = some r ∧ f.colLabels[j]? = some c ∧ ∃ line, f.cells[i]? = some line ∧ line[j]? = some v

/-- A cell with row labels `r` and column labels `c` has the label `l` along the dimension `d`. -/
def Along (t : Table) (r c : List Label) (d : String) (l : Label) : Prop :=
  (d, l) ∈ (t.rows.getD []).zip r ∨ (d, l) ∈ (t.columns.getD []).zip c

/-- The labels of a value: its input along `inputs`, and `ρ` along other dimensions. -/
def target (p : String) (ρ : String → Label) (d : String) : Label := if d = "inputs" then p else ρ d

/-- The cell is taken by `select`, and has the labels `e` along the dimensions that are not dropped. -/
def Fits (t : Table) (r c : List Label) (e : String → Label) : Prop :=
  ∀ d l, Along t r c d l → (∀ ls, (d, ls) ∈ t.select → l ∈ ls) ∧ (d ∉ t.drop → l = e d)

/-- The cell in line `i`, column `j` gives the input `p` the value `v` at the labels `ρ`. -/
def Says (t : Table) (f : Frame V) (i j : Nat) (p : String) (ρ : String → Label) (v : Scalar V) : Prop :=
  (∃ r c, Cell f i j r c (some v) ∧ Fits t r c (target p ρ)) ∧
    ∀ d items, (d, items) ∈ t.addDims → target p ρ d ∈ items

/-- The dimensions of the inputs of a table. -/
def Dim (t : Table) (d : String) : Prop :=
  d ≠ "inputs" ∧ (((d ∈ t.rows.getD [] ∨ d ∈ t.columns.getD []) ∧ d ∉ t.drop) ∨ ∃ items, (d, items) ∈ t.addDims)

/-- A frame with a line of cells for each row label, a cell of each line for each column label, and labels for each level. -/
structure Rect (f : Frame V) : Prop where
  lines : f.cells.length = f.rowLabels.length
  columns : ∀ line ∈ f.cells, line.length = f.colLabels.length
  rowLevels : ∀ r ∈ f.rowLabels, r.length = f.rowNames.length
  colLevels : ∀ c ∈ f.colLabels, c.length = f.colNames.length

/-- The definition names all the dimensions: an axis that is left out has a single label. -/
structure Named (t : Table) (f : Frame V) : Prop where
  rows : t.rows = none → f.rowLabels.length = 1
  columns : t.columns = none → f.colLabels.length = 1
  select : (t.select.map Prod.fst).Nodup
  rename : (t.rename.map Prod.fst).Nodup

/-! ### Which tables load -/

/-- A level named `n` in the file is the dimension `d`. -/
def Renamed (t : Table) (n d : String) : Prop := (n, d) ∈ t.rename ∨ ((∀ m, (n, m) ∉ t.rename) ∧ n = d)

/-- The levels of an axis of the file are those of the definition; levels without a name can be any. -/
def AxisFits (t : Table) (loaded : List (Option String)) : Option (List String) → Prop
  | none => loaded.length = 1
  | some ds => loaded.length = ds.length ∧
      ∀ (k : Nat) (n d : String), loaded[k]? = some (some n) → ds[k]? = some d → Renamed t n d

/-- A cell counts unless it is empty.  If there are dimensions only on the rows, or only on the columns, empty cells count
too. -/
def Counts (t : Table) (v : Option (Scalar V)) : Prop := v ≠ none ∨ t.rows = none ∨ t.columns = none

/-- A cell that counts and that is taken by `select`. -/
def Taken (t : Table) (f : Frame V) (i j : Nat) (r c : List Label) : Prop :=
  (∃ v, Cell f i j r c v ∧ Counts t v) ∧ ∀ d l, Along t r c d l → ∀ ls, (d, ls) ∈ t.select → l ∈ ls

/-- The dimension is on the rows or columns. -/
def OnAxis (t : Table) (d : String) : Prop := d ∈ t.rows.getD [] ∨ d ∈ t.columns.getD []

/-- The tables that load. -/
structure Accepts (isProtected : String → Bool) (t : Table) (f : Frame V) : Prop where
  rows : AxisFits t f.rowNames t.rows
  columns : AxisFits t f.colNames t.columns
  axes : t.rows ≠ none ∨ t.columns ≠ none
  /-- Dimensions are named once. -/
  once : (t.rows.getD [] ++ t.columns.getD []).Nodup
  addedOnce : (t.addDims.map Prod.fst).Nodup
  addedNew : ∀ d items, (d, items) ∈ t.addDims → OnAxis t d → d ∈ t.drop
  /-- The labels selected are there. -/
  select : ∀ d ls l, (d, ls) ∈ t.select → OnAxis t d → l ∈ ls →
    ∃ i j r c v, Cell f i j r c v ∧ Counts t v ∧ Along t r c d l
  /-- The dimensions dropped are there, and others are left. -/
  drop : ∀ d ∈ t.drop, OnAxis t d
  left : t.drop ≠ [] → ∃ d, OnAxis t d ∧ d ∉ t.drop
  items : ∀ d items, (d, items) ∈ t.addDims → items ≠ []
  inputs : (OnAxis t "inputs" ∧ "inputs" ∉ t.drop) ∨ ∃ items, ("inputs", items) ∈ t.addDims
  /-- Cells differ along a dimension that is not dropped. -/
  clash : ∀ i j r c i' j' r' c', Taken t f i j r c → Taken t f i' j' r' c' →
    (∀ d l l', d ∉ t.drop → Along t r c d l → Along t r' c' d l' → l = l') → i = i' ∧ j = j'
  itemsOnce : ∀ i j r c, Taken t f i j r c → ∀ d items, (d, items) ∈ t.addDims → items.Nodup
  /-- No input is protected. -/
  allowed : ∀ i j r c, Taken t f i j r c →
    (∀ l, Along t r c "inputs" l → "inputs" ∉ t.drop → isProtected l = false) ∧
      ∀ items, ("inputs", items) ∈ t.addDims → ∀ l ∈ items, isProtected l = false

end Tables
end Calliope
