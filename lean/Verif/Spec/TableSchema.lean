import Verif.Spec.Tables

/-!
# Specification vocabulary for the validation of data table definitions
-/

namespace Calliope
namespace Tables

variable {V : Type}

/-- Python lists declared without repeats, and dictionaries. -/
structure Lists (t : Table) : Prop where
  rows : (t.rows.getD []).Nodup
  columns : (t.columns.getD []).Nodup
  drop : t.drop.Nodup
  select : ∀ d ls, (d, ls) ∈ t.select → ls.Nodup

/-- The dimension is on the rows or columns, and is not dropped. -/
def Kept (t : Table) (d : String) : Prop := OnAxis t d ∧ d ∉ t.drop

/-- What the schema says of a definition. -/
structure Valid (t : Table) : Prop where
  lists : Lists t
  /-- Rows or columns are defined, and not dropped. -/
  shape : ∃ d, Kept t d
  /-- Rows and columns do not overlap, but for dimensions that are dropped. -/
  overlap : ∀ d, d ∈ t.rows.getD [] → d ∈ t.columns.getD [] → d ∈ t.drop
  /-- Dimensions that are added are not on rows or columns, unless they are dropped. -/
  added : ∀ d items, (d, items) ∈ t.addDims → ¬ Kept t d
  /-- Dimensions are renamed to those of rows or columns that are not dropped. -/
  renamed : ∀ n d, (n, d) ∈ t.rename → Kept t d

/-- A table in a file or in memory: its axes have at least one level. -/
structure Readable (t : Table) (f : Frame V) : Prop where
  rect : Rect f
  named : Named t f
  rows : f.rowNames ≠ []
  columns : f.colNames ≠ []

/-- A definition that some table can be read by. -/
structure Usable (t : Table) : Prop where
  rows : t.rows ≠ some []
  columns : t.columns ≠ some []
  /-- A dimension that is dropped is on the rows or the columns, not both. -/
  drop : ∀ d ∈ t.drop, (d ∈ t.rows.getD [] ∧ d ∉ t.columns.getD []) ∨ (d ∉ t.rows.getD [] ∧ d ∈ t.columns.getD [])
  /-- The inputs are named. -/
  inputs : Kept t "inputs" ∨ ∃ items, ("inputs", items) ∈ t.addDims
  /-- Added dimensions have labels. -/
  items : ∀ d items, (d, items) ∈ t.addDims → items ≠ []

end Tables
end Calliope
