/-!
# Splitting strings

Python's `s.split(sep)` for a one-character separator and `s.split(sep, 1)`, on the list of
characters.  Used for dotted keys (`/repo/src/calliope/attrdict.py:92-93,122-124,146-147`), for
comma-separated override names (`/repo/src/calliope/preprocess/model_definition.py:171`) and for
override options (`/repo/src/calliope/cli.py:384-386`).
-/

namespace Calliope
namespace Text

/-- `s.split(sep)`. -/
def splitChars (sep : Char) : List Char → List (List Char)
  | [] => [[]]
  | c :: cs =>
      if c = sep then [] :: splitChars sep cs
      else match splitChars sep cs with
        | [] => [[c]]
        | w :: ws => (c :: w) :: ws

/-- `s.split(sep)` on strings. -/
def split (sep : Char) (s : String) : List String := (splitChars sep s.toList).map String.ofList

/-- `key, remainder = s.split(sep, 1)` (attrdict.py:93,124,147); `none` when `sep not in s`
(attrdict.py:92,122,146). -/
def splitFirst (sep : Char) : List Char → Option (List Char × List Char)
  | [] => none
  | c :: cs =>
      if c = sep then some ([], cs)
      else match splitFirst sep cs with
        | none => none
        | some (w, rest) => some (c :: w, rest)

end Text
end Calliope
