import Verif.Model.Expr

/-!
# Model of the indices in documented math

Source: `as_math_string` of the helper functions (`/repo/src/calliope/backend/helper_functions.py`) and of components
and slices (`/repo/src/calliope/backend/expression_parser.py`).

`latex` writes the text as the code does, with the regular expression of `_update_iterator`; `printed` keeps it as a
tree, of which the subscripts `_\text{...}` are lists of items, and `Text.text` writes the tree out.

Simplifications: `sum_next_n` (helper_functions.py:884-893) is left out: `C48_printed` is about its limits.  Operators
are printed without the parentheses that `Arith` models.  Components are printed in bold, whether they are inputs or
results.  Sub-expressions stand in place of the references to them (expression_parser.py:680-681).  Text that belongs to
an expression of which the array cannot be evaluated is arbitrary.
-/

namespace Calliope
namespace LatexIndex

open Grid (Label Arr)
open Expr

mutual
/-- What stands between two commas of a subscript. -/
inductive Item where
  /-- an iterator: `timestep` -/
  | it (s : String)
  /-- an iterator and a number with its sign: `timestep-1` -/
  | moved (s : String) (n : Int)
  /-- `tech=pv` -/
  | fixed (s : String) (l : Label)
  /-- `timestep=timesteps[-1]` -/
  | nth (s dim : String) (i : Int)
  /-- `timestep=\textit{lookup}_\text{timestep}[timestep]`, the end only if `again` -/
  | looked (s name : String) (sub : Items) (again : Bool)
/-- A subscript. -/
inductive Items where
  | nil
  | cons (x : Item) (r : Items)
end

/-- What `_update_iterator` adds to an iterator. -/
inductive Suffix where
  /-- `f"{-1 * int(v):+d}"` (helper_functions.py:608) -/
  | shift (n : Int)
  /-- `rf"={array}[{iterator}]"` (helper_functions.py:442) -/
  | look (name : String) (sub : Items)

/-- `it + iterator_converter[it]` (helper_functions.py:126-130). -/
def Item.add (c : String → Option Suffix) : Item → Item
  | .it s => match c s with
    | none => .it s
    | some (.shift n) => .moved s n
    | some (.look name sub) => .looked s name sub true
  | x => x

/-- The loop over the items (helper_functions.py:121-133). -/
def Items.addAll (c : String → Option Suffix) : Items → Items
  | .nil => .nil
  | .cons x r => .cons (x.add c) (r.addAll c)

/-- Whether there are braces in the item. -/
def Item.braced : Item → Bool
  | .looked _ _ _ _ => true
  | _ => false

/-- Whether there are braces in the subscript. -/
def Items.braced : Items → Bool
  | .nil => false
  | .cons x r => x.braced || r.braced

mutual
/-- `re.sub` in an item: a subscript in it may match (helper_functions.py:135). -/
def Item.inside (c : String → Option Suffix) : Item → Item
  | .looked s name sub again => .looked s name (if sub.braced then sub.inside c else sub.addAll c) again
  | x => x
/-- `re.sub` in a subscript that has braces in it. -/
def Items.inside (c : String → Option Suffix) : Items → Items
  | .nil => .nil
  | .cons x r => .cons (x.inside c) (r.inside c)
end

/-- `re.sub(r"(_\\text{)([^{}]*?)(})", ...)` of a subscript (helper_functions.py:135): it matches if there are no braces
in it, and otherwise only what is inside may match. -/
def Items.update (c : String → Option Suffix) (a : Items) : Items :=
  if a.braced then a.inside c else a.addAll c

/-- What is printed before one term. -/
inductive Un where
  /-- `+` and `-` -/
  | sign (o : Arith.Op)
  /-- `\sum\limits_{\substack{\text{node} \in \text{nodes}}}` (helper_functions.py:372-377) -/
  | sum (over : List String)
  /-- `\sum\limits_{\text{carrier} \in \text{carrier_in}}` (helper_functions.py:409-410) -/
  | carriers (flow : String)
  /-- `\sum\limits_{\substack{\text{node} \in \text{nodes} \\ \text{ if } \textit{g}_\text{node} = \text{group}}}`
  (helper_functions.py:705-711) -/
  | group (over : List String) (g : String) (sub : Items) (groupDim : String)
  /-- `\sum\limits_{\substack{\text{timestep} \in \text{timesteps} \text{ if } \text{month}(\text{timestep}) =
  \text{month}}}` (helper_functions.py:792-797) -/
  | period (over group : String)

/-- What is printed between two terms. -/
inductive Bin where
  | op (o : Arith.Op)
  /-- `(x \text{if } c == True)` (helper_functions.py:649) -/
  | cond

/-- Text of an expression. -/
inductive Text (V : Type) where
  | num (v : V)
  /-- a name without `math_repr` (expression_parser.py:790-791) -/
  | name (n : String)
  | comp (n : String) (sub : Items)
  | un (u : Un) (t : Text V)
  | bin (b : Bin) (t u : Text V)

variable {V : Type}

/-- `_update_iterator` where one term follows. -/
def Un.update (c : String → Option Suffix) : Un → Un
  | .group over g sub groupDim => .group over g (sub.update c) groupDim
  | u => u

/-- `_update_iterator(instring, iterator_converter, "add")` (helper_functions.py:99-135). -/
def Text.update (c : String → Option Suffix) : Text V → Text V
  | .num v => .num v
  | .name n => .name n
  | .comp n sub => .comp n (sub.update c)
  | .un u t => .un (u.update c) (t.update c)
  | .bin b t u => .bin b (t.update c) (u.update c)

/-- The value of a key in a dictionary of iterators: where two dimensions have one iterator, the later is left. -/
def keyed {α : Type} (it : String → String) (l : List (String × α)) (s : String) : Option α :=
  (l.reverse.find? (fun p => it p.1 == s)).map Prod.snd

/-- `_dims_to_var_string` (latex_backend_model.py:777-782). -/
def plain (it : String → String) : List String → Items
  | [] => .nil
  | d :: ds => .cons (.it (it d)) (plain it ds)

/-- The dictionary of `Roll.as_math_string` (helper_functions.py:607-609). -/
def shiftSuffix (it : String → String) (shifts : List (String × Int)) (s : String) : Option Suffix :=
  (keyed it shifts s).map (fun n => .shift (-n))

/-- The subscript of a lookup array. -/
def lookupItems (E : Env V) (it : String → String) (n : String) : Items :=
  match E.lookup n with
  | some g => plain it g.dims
  | none => .nil

/-- The dictionary of `SelectFromLookupArrays.as_math_string` (helper_functions.py:441-444). -/
def lookSuffix (E : Env V) (it : String → String) (ls : List (String × String)) (s : String) : Option Suffix :=
  (keyed it ls s).map (fun n => .look n (lookupItems E it n))

/-- `f"{k}={v}"` (expression_parser.py:549) with the text of a slice (helper_functions.py:541-543,
expression_parser.py:640-641). -/
def sliceItem (E : Env V) (slices : String → Option SliceDef) (it : String → String) (s : String) : Slicer → Item
  | .label l => .fixed s l
  | .ref n => match slices n with
    | none => .it s
    | some (.label l) => .fixed s l
    | some (.valAt d i) => .nth s d i
    | some (.lookup m shifts) => .looked s m ((lookupItems E it m).update (shiftSuffix it shifts)) false

/-- `",".join(replacers.get(k, k) for k in term[2])` (expression_parser.py:553). -/
def sliceItems (E : Env V) (slices : String → Option SliceDef) (it : String → String) (ss : List (String × Slicer)) :
    Items → Items
  | .nil => .nil
  | .cons (.it s) r => .cons (match keyed it ss s with
      | some v => sliceItem E slices it s v
      | none => .it s) (sliceItems E slices it ss r)
  | .cons x r => .cons x (sliceItems E slices it ss r)

/-- `_get_dims_from_iterators` (helper_functions.py:137-162) of the subscript of `dims`. -/
def dimsFromIterators (it : String → String) (D dims : List String) : List String :=
  dims.flatMap (fun d => D.filter (fun x => it x == it d))

mutual
/-- `as_math_string` of an expression; `D` are the dimensions of the math, `it` their iterators. -/
def printed (E : Env V) (slices : String → Option SliceDef) (it : String → String) (D : List String) : Ex V → Text V
  | .num v => .num v
  | .comp n => match E.comp n with
    | some c => .comp n (plain it c.arr.dims)
    | none => .name n
  | .sliced n ss => match E.comp n with
    | some c => .comp n (sliceItems E slices it ss (plain it c.arr.dims))
    | none => .name n
  | .sub n => .name n
  | .sign o t => .un (.sign o) (printed E slices it D t)
  | .chain t r => printedRest E slices it D (printed E slices it D t) r
  | .sum t over => .un (.sum over) (printed E slices it D t)
  | .reduceCarrier t flow => .un (.carriers flow) (printed E slices it D t)
  | .cond t c => .bin .cond (printed E slices it D t) (printed E slices it D c)
  | .roll t shifts => (printed E slices it D t).update (shiftSuffix it shifts)
  | .groupSum t g groupDim => match E.lookup g with
    | some a => .un (.group (dimsFromIterators it D a.dims) g (plain it a.dims) groupDim) (printed E slices it D t)
    | none => .name g
  | .groupDatetime t over group => .un (.period over group) (printed E slices it D t)
  | .sumNextN _ over _ => .name over
  | .select t ls => (printed E slices it D t).update (lookSuffix E it ls)
/-- The loop of `EvalOperatorOperand.as_math_string` (expression_parser.py:240-256). -/
def printedRest (E : Env V) (slices : String → Option SliceDef) (it : String → String) (D : List String)
    (acc : Text V) : ExRest V → Text V
  | .one o t => .bin (.op o) acc (printed E slices it D t)
  | .more o t r => printedRest E slices it D (.bin (.op o) acc (printed E slices it D t)) r
end

/-! ### The text -/

/-- `f"{n:+d}"` of an integer. -/
def signed (n : Int) : String := if n < 0 then toString n else "+" ++ toString n

mutual
/-- An item as it is printed. -/
def Item.text : Item → String
  | .it s => s
  | .moved s n => s ++ signed n
  | .fixed s l => s ++ "=" ++ l
  | .nth s d i => s ++ "=" ++ d ++ "[" ++ toString i ++ "]"
  | .looked s name sub again => s ++ "=\\textit{" ++ name ++ "}" ++ sub.subscript ++ (if again then "[" ++ s ++ "]" else "")
/-- `_\text{...}`, or nothing. -/
def Items.subscript : Items → String
  | .nil => ""
  | .cons x r => "_\\text{" ++ x.text ++ r.tail
/-- The items after the first, and the closing brace. -/
def Items.tail : Items → String
  | .nil => "}"
  | .cons x r => "," ++ x.text ++ r.tail
end

/-- `_instr` (helper_functions.py:164-174). -/
def instr (it : String → String) (d : String) : String := "\\text{" ++ it d ++ "} \\in \\text{" ++ d ++ "}"

/-- `r" \\\\ ".join(...)`. -/
def lines : List String → String
  | [] => ""
  | [x] => x
  | x :: y :: r => x ++ " \\\\ " ++ lines (y :: r)

/-- The signs that `Arith` models in more detail. -/
def opText : Arith.Op → String
  | .plus => " + "
  | .minus => " - "
  | .times => " \\times "
  | .div => " / "
  | .pow => "^"

def Un.text (it : String → String) : Un → String
  | .sign o => opText o
  | .sum over => "\\sum\\limits_{\\substack{" ++ lines (over.map (instr it)) ++ "}} "
  | .carriers flow => "\\sum\\limits_{\\text{carrier} \\in \\text{carrier_" ++ flow ++ "}} "
  | .group over g sub groupDim => "\\sum\\limits_{\\substack{" ++ lines (over.map (instr it) ++
      ["\\text{ if } \\textit{" ++ g ++ "}" ++ sub.subscript ++ " = \\text{" ++ it groupDim ++ "}"]) ++ "}} "
  | .period over g => "\\sum\\limits_{\\substack{" ++ instr it over ++ " \\text{ if } \\text{" ++ g ++ "}(\\text{" ++
      it over ++ "}) = \\text{" ++ it g ++ "}}} "

/-- The text of documented math. -/
def Text.text (it : String → String) (num : V → String) : Text V → String
  | .num v => num v
  | .name n => n
  | .comp n sub => "\\textbf{" ++ n ++ "}" ++ sub.subscript
  | .un u t => u.text it ++ "(" ++ t.text it num ++ ")"
  | .bin (.op o) t u => t.text it num ++ opText o ++ u.text it num
  | .bin .cond t u => "(" ++ t.text it num ++ " \\text{if } " ++ u.text it num ++ " == True)"

/-! ### The text, written as the code writes it -/

/-- `([^{}]*?)(})` at the start of a string: what is before the first brace, and what is after it. -/
def closing : List Char → Option (List Char × List Char)
  | [] => none
  | x :: r => if x = '}' then some ([], r) else if x = '{' then none else
      (closing r).map (fun p => (x :: p.1, p.2))

/-- `(_\\text{)([^{}]*?)(})` at the start of a string (helper_functions.py:135). -/
def matched : List Char → Option (List Char × List Char)
  | '_' :: '\\' :: 't' :: 'e' :: 'x' :: 't' :: '{' :: r => closing r
  | _ => none

/-- One item of the list (helper_functions.py:125-131). -/
def convert (c : List Char → Option (List Char)) (l : List Char) : List Char :=
  match c l with
  | some s => l ++ s
  | none => l

/-- `re.sub` with `__replace_in_iterator` (helper_functions.py:121-135); the number bounds the length. -/
def scan (c : List Char → Option (List Char)) : Nat → List Char → List Char
  | 0, _ => []
  | _ + 1, [] => []
  | n + 1, x :: r => match matched (x :: r) with
    | some (a, b) => '_' :: '\\' :: 't' :: 'e' :: 'x' :: 't' :: '{' ::
        ([','].intercalate ((a.splitOn ',').map (convert c)) ++ '}' :: scan c n b)
    | none => x :: scan c n r

/-- `_update_iterator(instring, iterator_converter, "add")` (helper_functions.py:99-135). -/
def updateIterator (c : List Char → Option (List Char)) (s : List Char) : List Char := scan c s.length s

/-- The dictionary of `Roll.as_math_string` (helper_functions.py:607-609). -/
def shiftText (it : String → String) (shifts : List (String × Int)) (s : List Char) : Option (List Char) :=
  (keyed it shifts (String.ofList s)).map (fun n => (signed (-n)).toList)

/-- The text of a lookup array. -/
def lookupText (E : Env V) (it : String → String) (n : String) : List Char :=
  ("\\textit{" ++ n ++ "}" ++ (lookupItems E it n).subscript).toList

/-- The dictionary of `SelectFromLookupArrays.as_math_string` (helper_functions.py:441-444). -/
def lookText (E : Env V) (it : String → String) (ls : List (String × String)) (s : List Char) : Option (List Char) :=
  (keyed it ls (String.ofList s)).map (fun n => '=' :: (lookupText E it n ++ '[' :: (s ++ [']'])))

/-- `f"{k}={v}"` (expression_parser.py:549), or the iterator if it is not sliced. -/
def sliceText (E : Env V) (slices : String → Option SliceDef) (it : String → String) (s : String) :
    Option Slicer → List Char
  | none => s.toList
  | some (.label l) => (s ++ "=" ++ l).toList
  | some (.ref n) => match slices n with
    | none => s.toList
    | some (.label l) => (s ++ "=" ++ l).toList
    | some (.valAt d i) => (s ++ "=" ++ d ++ "[" ++ toString i ++ "]").toList
    | some (.lookup m shifts) => s.toList ++ '=' :: updateIterator (shiftText it shifts) (lookupText E it m)

/-- `_\text{...}` of a list of texts, or nothing (latex_backend_model.py:777-782, expression_parser.py:553-554). -/
def subscriptText (l : List (List Char)) : List Char :=
  if l.isEmpty then [] else "_\\text{".toList ++ [','].intercalate l ++ ['}']

mutual
/-- `as_math_string` of an expression. -/
def latex (E : Env V) (slices : String → Option SliceDef) (it : String → String) (D : List String) (num : V → String) :
    Ex V → List Char
  | .num v => (num v).toList
  | .comp n => match E.comp n with
    | some c => ("\\textbf{" ++ n ++ "}").toList ++ subscriptText (c.arr.dims.map (fun d => (it d).toList))
    | none => n.toList
  | .sliced n ss => match E.comp n with
    | some c => ("\\textbf{" ++ n ++ "}").toList ++
        subscriptText (c.arr.dims.map (fun d => sliceText E slices it (it d) (keyed it ss (it d))))
    | none => n.toList
  | .sub n => n.toList
  | .sign o t => (opText o ++ "(").toList ++ latex E slices it D num t ++ [')']
  | .chain t r => latexRest E slices it D num (latex E slices it D num t) r
  | .sum t over => ((Un.sum over).text it ++ "(").toList ++ latex E slices it D num t ++ [')']
  | .reduceCarrier t flow => ((Un.carriers flow).text it ++ "(").toList ++ latex E slices it D num t ++ [')']
  | .cond t c => ['('] ++ latex E slices it D num t ++ " \\text{if } ".toList ++ latex E slices it D num c ++
      " == True)".toList
  | .roll t shifts => updateIterator (shiftText it shifts) (latex E slices it D num t)
  | .groupSum t g groupDim => match E.lookup g with
    | some a => ("\\sum\\limits_{\\substack{" ++ lines ((dimsFromIterators it D a.dims).map (instr it) ++
          ["\\text{ if } " ++ String.ofList (lookupText E it g) ++ " = \\text{" ++ it groupDim ++ "}"]) ++
          "}} (").toList ++ latex E slices it D num t ++ [')']
    | none => g.toList
  | .groupDatetime t over group => ((Un.period over group).text it ++ "(").toList ++ latex E slices it D num t ++ [')']
  | .sumNextN _ over _ => over.toList
  | .select t ls => updateIterator (lookText E it ls) (latex E slices it D num t)
/-- The loop of `EvalOperatorOperand.as_math_string` (expression_parser.py:240-256). -/
def latexRest (E : Env V) (slices : String → Option SliceDef) (it : String → String) (D : List String) (num : V → String)
    (acc : List Char) : ExRest V → List Char
  | .one o t => acc ++ (opText o).toList ++ latex E slices it D num t
  | .more o t r => latexRest E slices it D num (acc ++ (opText o).toList ++ latex E slices it D num t) r
end

end LatexIndex
end Calliope
