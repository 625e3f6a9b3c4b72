import Verif.Model.AttrName
import Verif.Spec.WhereGrammar

/-!
# Specification: names that math strings can mention
-/

namespace Calliope
namespace Grammar

/-- The identifier `n` is in the string `s`. -/
def Mentions (s n : Str) : Prop := ∃ ts, Written false s ts ∧ n ∈ idsOf ts

/-- Words that stand for themselves in a condition. -/
def Reserved (n : Str) : Prop :=
  Word "true".toList n ∨ Word "false".toList n ∨ Word "not".toList n

/-- Every string is read alike, whichever way the components are named. -/
def SameReading (names names' : Str → Bool) : Prop :=
  ∀ s, readArithmetic names s = readArithmetic names' s ∧ readEquation names s = readEquation names' s ∧
    readSub names s = readSub names' s ∧ readSlice names s = readSlice names' s

end Grammar
end Calliope
