import Verif.Model.Clean
import Verif.Model.Where

/-!
# From cleaned inputs to the inputs of a backend

Source: `/repo/src/calliope/backend/backend_model.py:574-598` (`_add_inputs`).

Simplification: numbers are rational, so that there are no infinite ones.
-/

namespace Calliope
namespace Clean

open Grid ModelData

/-- A value of the cleaned inputs; NaN where it is missing. -/
def toVal : Option (Scalar Rat) → Where.Val
  | none => .nan
  | some (.bool b) => .bool b
  | some (.num q) => .num q
  | some (.str s) => .str s

/-- The input `p` of a backend (`_add_inputs`, backend_model.py:574-598), which has the definition `d` in the math. -/
def inputOf (d : Where.InputDef) (ds : DS Rat) (p : String) : Where.Input :=
  Where.addInput d ((ds.vars.lookup p).map (map toVal))

end Clean
end Calliope
