import Verif.Spec.ExtraMath
import Verif.Spec.WhereGrammar

/-!
# Specification: the strings of a math that are well written
-/

namespace Calliope
namespace MathText

open Arith (isAdd isMul isPow)
open Grammar (Str Tok Written idsOf)

/-- A component of this name is in the list. -/
def Has (l : List Raw) (n : Str) : Prop := ∃ r ∈ l, r.name = n

/-- A component of this name is in the list and active. -/
def HasActive (l : List Raw) (n : Str) : Prop := ∃ r ∈ l, r.name = n ∧ r.active ≠ some false

/-- What expressions may name. -/
def File.operands (m : File) : List Raw := m.dimensions ++ m.parameters ++ m.lookups ++ m.vars ++ m.globals

/-- The names of a math, active or not, by what they stand for. -/
structure AllNames (m : File) (names : Str → Bool) (w : Grammar.WNames) : Prop where
  expr : ∀ n, names n = true ↔ Has m.operands n
  dims : ∀ n, w.dims n = true ↔ Has m.dimensions n
  inputs : ∀ n, w.inputs n = true ↔ Has (m.parameters ++ m.lookups) n
  results : ∀ n, w.results n = true ↔ Has (m.vars ++ m.globals) n
  post : ∀ n, w.post n = false
  hasPost : w.hasPost = false

/-- A condition can be written like this. -/
def WhereOk (w : Grammar.WNames) (s : Str) : Prop := ∃ t ts, Written false s ts ∧ Grammar.SCond w t ts

/-- An arithmetic expression can be written like this. -/
def ArithmeticOk (names : Str → Bool) (s : Str) : Prop :=
  ∃ t ts, Written false s ts ∧ Grammar.Spells (Grammar.inEquations names) [isAdd, isMul, isPow] t ts

/-- An equation can be written like this. -/
def EquationOk (names : Str → Bool) (s : Str) : Prop :=
  ∃ l o r ts, Written false s ts ∧ Grammar.SEquation (Grammar.inEquations names) l o r ts

/-- A sub-expression can be written like this. -/
def SubOk (names : Str → Bool) (s : Str) : Prop :=
  ∃ t ts, Written false s ts ∧ Grammar.Spells (Grammar.inSubs names) [isAdd, isMul, isPow] t ts

/-- A slice can be written like this. -/
def SliceOk (names : Str → Bool) (s : Str) : Prop :=
  ∃ a ts, Written false s ts ∧ Grammar.SSliceDef (Grammar.inSlices names) a ts

/-- The `where` strings that a component gives. -/
def Raw.wheres (r : Raw) : List Str :=
  r.cond.toList ++ ((r.equations.getD []) ++ r.subs.flatMap Prod.snd ++ r.slices.flatMap Prod.snd).filterMap RawItem.cond

/-- The expressions of a component. -/
def Raw.exprs (r : Raw) : List Str :=
  ((r.equations.getD []) ++ r.subs.flatMap Prod.snd ++ r.slices.flatMap Prod.snd).map RawItem.expr

/-- The strings of a component are well written; `ok` is for those of its equations. -/
structure ComponentOk (names : Str → Bool) (w : Grammar.WNames) (ok : Str → Prop) (r : Raw) : Prop where
  wheres : ∀ s ∈ r.wheres, WhereOk w s
  equations : ∀ e ∈ r.equations.getD [], ok e.expr
  subs : ∀ p ∈ r.subs, ∀ e ∈ p.2, SubOk names e.expr
  slices : ∀ p ∈ r.slices, ∀ e ∈ p.2, SliceOk names e.expr

/-- The strings of the variables, global expressions, constraints and objectives are well written. -/
structure StringsOk (m : File) (names : Str → Bool) (w : Grammar.WNames) : Prop where
  vars : ∀ r ∈ m.vars, ∀ s ∈ r.cond, WhereOk w s
  globals : ∀ r ∈ m.globals, ComponentOk names w (ArithmeticOk names) r
  constraints : ∀ r ∈ m.constraints, ComponentOk names w (EquationOk names) r
  objectives : ∀ r ∈ m.objectives, ComponentOk names w (ArithmeticOk names) r

/-- A word of a string. -/
def Word (s n : Str) : Prop := ∃ ts, Written false s ts ∧ n ∈ idsOf ts

/-- What an active component uses is active: the dimensions in its `where` strings; the inputs in its `where` strings
that have the name of a result; and what its expressions name. -/
structure ActiveUse (m : File) (r : Raw) : Prop where
  dims : ∀ s ∈ r.wheres, ∀ n, Word s n → Has m.dimensions n → HasActive m.dimensions n
  inputs : ∀ s ∈ r.wheres, ∀ n, Word s n → Has (m.parameters ++ m.lookups) n → Has (m.vars ++ m.globals) n →
    HasActive (m.parameters ++ m.lookups) n
  exprs : ∀ s ∈ r.exprs, ∀ n, Word s n → Has m.operands n → HasActive m.operands n

end MathText
end Calliope
