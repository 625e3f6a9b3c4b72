import Verif.Model.Csv
import Verif.Spec.Clean

/-!
# Specification vocabulary for saving to CSV
-/

namespace Calliope
namespace Csv

open Grid ModelData Clean

variable {V A : Type}

/-- The file of this name in the directory, if there is a directory. -/
def Entry.file : Entry V A → String → Option (Content V A)
  | .dir files, n => files.lookup n
  | _, _ => none

/-- The table has one row for each cell of the input `p` (unless its value is missing and those are left out), with the
labels in the order of the header, and nothing else. -/
structure Shows (ds : DS V) (dropna : Bool) (a : Arr (Option (ModelData.Scalar V))) (t : Table V) : Prop where
  header : t.header = a.dims
  row : ∀ ρ : String → Label, (∀ d ∈ a.dims, (d, ρ d) ∈ ds.coords) →
    ∀ v, (a.dims.map ρ, v) ∈ t.rows ↔ v = a.at ρ ∧ (dropna = true → v ≠ none)
  only : ∀ r ∈ t.rows, ∃ ρ : String → Label, r.1 = a.dims.map ρ ∧ ∀ d ∈ a.dims, (d, ρ d) ∈ ds.coords
  once : (t.rows.map Prod.fst).Nodup

end Csv
end Calliope
