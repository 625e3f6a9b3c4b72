import Verif.Model.Where

/-!
# Model of the operands of documented conditions

Source: `as_math_string` of the operands of where strings (`/repo/src/calliope/backend/where_parser.py`) and of the
helper functions `any`, `defined`, `sum` and `get_val_at_index` (`/repo/src/calliope/backend/helper_functions.py`).

Simplifications: the text of an operand is kept as a tree; `Atom.text` writes it out.  How numbers are written is left
out (`num`).  And, or and not are the subject of `Arith`.
-/

namespace Calliope
namespace LatexWhere

open Grid (Label Arr)
open Where

/-- `OP_TRANSLATOR` (where_parser.py:232-238): `\leq`, `\geq`, `==`, `<`, `>`. -/
inductive Sign where
  | leq | geq | equal | less | more
  deriving DecidableEq

/-- `self.OP_TRANSLATOR[self.op]` (where_parser.py:249). -/
def translate : CmpOp → Sign
  | .le => .leq
  | .ge => .geq
  | .eq => .equal
  | .lt => .less
  | .gt => .more

/-- What is compared. -/
inductive Term where
  | num (q : Rat)
  /-- the name of a dimension (where_parser.py:218-219) -/
  | dim (d : String)
  /-- `\textit{p}_\text{node}` -/
  | input (p : String) (sub : List String)
  /-- `\text{config.o}` (where_parser.py:97-98) -/
  | config (o : String)
  /-- `timesteps[0]` (helper_functions.py:541-543) -/
  | nth (d : String) (i : Int)
  /-- arithmetic -/
  | op (o : String) (l r : Term)
  /-- `\textbf{r}_\text{node}` -/
  | result (n : String) (sub : List String)
  /-- `\sum\limits_{\substack{\text{node} \in \text{nodes}}} (\textbf{r}_\text{node})` -/
  | sum (n : String) (over : List String)
  | bool (b : Bool)
  | inf
  /-- `\text{s}` -/
  | str (s : String)

/-- The text of an operand. -/
inductive Atom where
  | word (b : Bool)
  /-- `\exists (\textit{p}_\text{node})` (where_parser.py:179-181) -/
  | exist (p : String) (sub : List String)
  /-- `\textbf{r}_\text{node}` (where_parser.py:138-142) -/
  | result (r : String) (sub : List String)
  | cmp (l : Term) (o : Sign) (r : Term)
  /-- `\text{node} \in \text{[a,b]}` (where_parser.py:295-300) -/
  | isIn (d : String) (items : List Where.Val)
  /-- `\bigvee\limits_{\substack{\text{node} \in \text{nodes}}} (...)` (helper_functions.py:205-212) -/
  | vee (over : List String) (a : Atom)
  /-- `\bigvee\limits_{\substack{\text{tech} \in \text{[a,b]}}}\text{tech defined in node}`
  (helper_functions.py:348-362); `all` for `\bigwedge` -/
  | within (all : Bool) (d : String) (vals : List Label) (w : String)
  /-- `\bigwedge(..., ...)` (helper_functions.py:253) -/
  | wedge (a : Atom) (b : Atom)

/-- The left-hand side of a comparison; results have the dimensions of their arrays. -/
def lhsTerm (e : Env) : Lhs → Term
  | .num q => .num q
  | .dim d => .dim d
  | .input p => .input p (e.input p).arr.dims
  | .config o => .config o
  | .valAt d i => .nth d i
  | .op o l r => .op o (lhsTerm e l) (lhsTerm e r)
  | .result n => .result n (match e.number n with | some a => a.dims | none => [])
  | .total n over => .sum n over

/-- The right-hand side of a comparison. -/
def rhsTerm : Rhs → Term
  | .bool b => .bool b
  | .num q => .num q
  | .inf => .inf
  | .str s => .str s
  | .valAt d i => .nth d i

/-- The dimensions in the subscript of a result. -/
def resultSub (e : Env) (r : String) : List String :=
  match e.result r with
  | some a => a.dims
  | none => []

/-- `_latex_substring` (helper_functions.py:348-362). -/
def substring (how : How) (w : String) (p : String × List Label) : Atom :=
  .within (decide (how = .all)) p.1 p.2 w

/-- `Defined.as_math_string` (helper_functions.py:244-253); the wedge of no text stands for no dimension at all. -/
def definedText (how : How) (w : String) : List (String × List Label) → Atom
  | [] => .word true
  | [p] => substring how w p
  | p :: q :: r => .wedge (substring how w p) (definedText how w (q :: r))

/-- `as_math_string` of an operand. -/
def atom (e : Env) : Leaf → Atom
  | .bool b => .word b
  | .input p => .exist p (e.input p).arr.dims
  | .result r => .result r (resultSub e r)
  | .cmp l o r => .cmp (lhsTerm e l) (translate o) (rhsTerm r)
  | .isIn items d => .isIn d items
  | .anyInput p over => .vee over (.exist p (e.input p).arr.dims)
  | .anyResult r over => .vee over (.result r (resultSub e r))
  | .defined sel w how => definedText how w sel

/-! ### The text -/

/-- `_\text{...}` (latex_backend_model.py:777-782). -/
def subText (it : String → String) : List String → String
  | [] => ""
  | d :: ds => "_\\text{" ++ ",".intercalate ((d :: ds).map it) ++ "}"

def Term.text (it : String → String) (num : Rat → String) : Term → String
  | .num q => num q
  | .dim d => d
  | .input p sub => "\\textit{" ++ p ++ "}" ++ subText it sub
  | .config o => "\\text{config." ++ o ++ "}"
  | .nth d i => d ++ "[" ++ toString i ++ "]"
  | .op o l r => l.text it num ++ o ++ r.text it num
  | .result n sub => "\\textbf{" ++ n ++ "}" ++ subText it sub
  | .sum n over => "\\sum\\limits_{\\substack{" ++
      " \\\\ ".intercalate (over.map (fun d => "\\text{" ++ it d ++ "} \\in \\text{" ++ d ++ "}")) ++ "}} (" ++ n ++ ")"
  | .bool b => "\\text{" ++ toString b ++ "}"
  | .inf => "\\text{inf}"
  | .str s => "\\text{" ++ s ++ "}"

def Sign.text : Sign → String
  | .leq => "\\mathord{\\leq}"
  | .geq => "\\mathord{\\geq}"
  | .equal => "\\mathord{==}"
  | .less => "\\mathord{<}"
  | .more => "\\mathord{>}"

def itemText (num : Rat → String) : Where.Val → String
  | .str s => s
  | .num q => num q
  | .bool b => toString b
  | .nan => "nan"
  | .posInf => "inf"
  | .negInf => "-inf"

/-- The text of an operand. -/
def Atom.text (it : String → String) (num : Rat → String) : Atom → String
  | .word b => toString b
  | .exist p sub => "\\exists (\\textit{" ++ p ++ "}" ++ subText it sub ++ ")"
  | .result r sub => "\\textbf{" ++ r ++ "}" ++ subText it sub
  | .cmp l o r => l.text it num ++ o.text ++ r.text it num
  | .isIn d items => "\\text{" ++ it d ++ "} \\in \\text{[" ++ ",".intercalate (items.map (itemText num)) ++ "]}"
  | .vee over a => "\\bigvee\\limits_{\\substack{" ++
      " \\\\ ".intercalate (over.map (fun d => "\\text{" ++ it d ++ "} \\in \\text{" ++ d ++ "}")) ++ "}} (" ++
      a.text it num ++ ")"
  | .within all d vals w => "\\big" ++ (if all then "wedge" else "vee") ++ "\\limits_{\\substack{\\text{" ++ it d ++
      "} \\in \\text{[" ++ ",".intercalate vals ++ "]}}}\\text{" ++ it d ++ " defined in " ++ it w ++ "}"
  | .wedge a b => "\\bigwedge(" ++ a.text it num ++ ", " ++ b.text it num ++ ")"

end LatexWhere
end Calliope
