import Verif.Model.Tables

/-!
# Model of the validation of data table definitions

Source: `/repo/src/calliope/schemas/data_table_schema.py` and `UniqueList` (`/repo/src/calliope/schemas/general.py:23-37`).

Simplifications: a single name counts as a list of one (`listify`, `/repo/src/calliope/util/tools.py:31-49`), `drop`,
`select`, `add_dims` and `rename_dims` that are not given as empty, and the pattern of names (`AttrStr`) is left out.
-/

namespace Calliope
namespace Tables

/-- The values of `UniqueList` fields (data_table_schema.py:28, 34, 40 and 47; general.py:23-30). -/
def uniqueFields (t : Table) : Bool :=
  decide (t.rows.getD []).Nodup && decide (t.columns.getD []).Nodup && decide t.drop.Nodup &&
    t.select.all (fun x => decide x.2.Nodup)

/-- `set(listify(names)) - drop` (data_table_schema.py:70-72). -/
def notDropped (t : Table) (names : Option (List String)) : List String :=
  (names.getD []).filter (fun n => !t.drop.contains n)

/-- `check_row_and_columns` (data_table_schema.py:67-86), after the checks of the fields. -/
def validate (t : Table) : Except Err Unit :=
  if !uniqueFields t then .error .valueError
  else if (notDropped t t.rows).isEmpty && (notDropped t t.columns).isEmpty then .error .valueError
  else if (notDropped t t.rows).any (fun n => (notDropped t t.columns).contains n) then .error .valueError
  else if t.addDims.any (fun x => (notDropped t t.rows ++ notDropped t t.columns).contains x.1) then .error .valueError
  else if t.rename.any (fun x => !(notDropped t t.rows ++ notDropped t t.columns).contains x.2) then .error .valueError
  else .ok ()

end Tables
end Calliope
