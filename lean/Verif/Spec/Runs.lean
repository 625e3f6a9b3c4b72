import Verif.Model.Runs

/-!
# Specification vocabulary for generated scripts

How a shell reads the generated text, independently of how it was generated.
-/

namespace Calliope
namespace Runs

/-- The decimal numeral of `k`. -/
def numeral (k : Nat) : Str := (Nat.repr k).toList

/-- Words between blanks, from the word read so far. -/
def wordsFrom : Str → Str → List Str
  | w, [] => if w = [] then [] else [w]
  | w, c :: cs =>
      if c = ' ' then (if w = [] then wordsFrom [] cs else w :: wordsFrom [] cs)
      else wordsFrom (w ++ [c]) cs

/-- The words of a command line without quotes: the text between blanks. -/
def words (s : Str) : List Str := wordsFrom [] s

/-- A name that the shell takes as one word as it stands: letters, digits and `_ - . / , : = + @ %`. -/
def Plain (s : Str) : Prop :=
  s ≠ [] ∧ ∀ c ∈ s, c.isAlphanum ∨ c ∈ ['_', '-', '.', '/', ',', ':', '=', '+', '@', '%']

/-- The lines of a text, from the line read so far. -/
def linesFrom : Str → Str → List Str
  | l, [] => [l]
  | l, c :: cs => if c = '\n' then l :: linesFrom [] cs else linesFrom (l ++ [c]) cs

/-- The lines of a text. -/
def linesOf (s : Str) : List Str := linesFrom [] s

/-- The lines of the first `case "$1" in … esac`. -/
def caseBody : List Str → List Str
  | [] => []
  | l :: ls =>
      if l = "    case \"$1\" in".toList then ls.takeWhile (· ≠ "    esac".toList) else caseBody ls

/-- A branch `pattern) command ;;`, blanks around the parts dropped; `none` for other lines. -/
def branch (l : Str) : Option (Str × Str) :=
  let l := l.dropWhile (· = ' ')
  match l.dropWhile (· ≠ ')') with
  | [] => none
  | _ :: r =>
      let r := r.dropWhile (· = ' ')
      let cmd := r.takeWhile (· ≠ ';')
      some (l.takeWhile (· ≠ ')'), (cmd.reverse.dropWhile (· = ' ')).reverse)

/-- What `process_case arg` runs: the command of the first branch with that pattern (patterns without
wildcards). -/
def job (script arg : Str) : Option Str :=
  (((caseBody (linesOf script)).filterMap branch).find? (fun b => b.1 = arg)).map Prod.snd

/-- The position of a choice of one item per group in the order where the last group varies fastest. -/
def position {β : Type} : List (List β) → List Nat → Nat
  | g :: gs, i :: is => i * (gs.map List.length).prod + position gs is
  | _, _ => 0

end Runs
end Calliope
