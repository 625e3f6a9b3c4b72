import Verif.Model.WhereGrammar

/-!
# Model of the pattern of names in model definitions

Source: `/repo/src/calliope/schemas/general.py:44`.

Simplification: the character classes `\w` and `\d` of the pattern are those of Unicode; they are arguments, with what is
known of them for ASCII in `Classes`.
-/

namespace Calliope
namespace Grammar

/-- `\w` and `\d`. -/
structure Classes where
  word : Char → Bool
  digit : Char → Bool
  /-- ASCII letters, digits and the underscore are `\w` -/
  ascii_word : ∀ c, c.isAlphanum = true ∨ c = '_' → word c = true
  /-- ASCII letters are no `\d` -/
  ascii_letter : ∀ c, c.isAlpha = true → digit c = false
  /-- ASCII digits are `\d` -/
  ascii_digit : ∀ c, c.isDigit = true → digit c = true
  /-- ASCII characters other than these are no `\w` -/
  ascii_other : ∀ c, c.toNat < 128 → c.isAlphanum = false → c ≠ '_' → word c = false

/-- `AttrStr`: `^[^_^\d][\w]*$` (general.py:44). -/
def attrStr (k : Classes) : Str → Bool
  | [] => false
  | c :: r => c != '_' && c != '^' && !k.digit c && r.all k.word

end Grammar
end Calliope
