import Verif.Model.DataSchema

/-!
# Specification: input data that the schema accepts, and input data that can be loaded
-/

namespace Calliope
namespace DataSchema

open ModelData (Scalar)

variable {V : Type}

/-- The labels of an entry. -/
def Entry.labs : Entry V → List (Lab V)
  | .one x => [x]
  | .list xs => xs

/-- The entries of an index. -/
def Index.entries : Index V → List (Entry V)
  | .one x => [.one x]
  | .list es => es

/-- The schema takes two entries for one: if they are the same, and if one is a text and the other a list of its
characters. -/
inductive TakenForOne : Entry V → Entry V → Prop
  | same (e : Entry V) : TakenForOne e e
  | chars (s : String) : TakenForOne (.one (.str s)) (.list (s.toList.map (fun c => .str (String.ofList [c]))))
  | chars' (s : String) : TakenForOne (.list (s.toList.map (fun c => .str (String.ofList [c])))) (.one (.str s))

/-- What the schema accepts. -/
structure Valid (k : Grammar.Classes) (item : Bool) (d : Definition V) : Prop where
  /-- there is data -/
  data : ∀ xs, d.data = .list xs → xs ≠ []
  /-- dimensions are named, once, and as names are -/
  named : d.dims ≠ [] ∧ d.dims.Nodup ∧ ∀ n ∈ d.dims, Grammar.attrStr k n.toList = true
  /-- a technology or node does not say for which technologies or nodes -/
  own : item = true → "techs" ∉ d.dims ∧ "nodes" ∉ d.dims
  /-- there are entries -/
  indexed : d.index.entries ≠ []
  /-- no label is twice in a list -/
  once : ∀ xs, Entry.list xs ∈ d.index.entries → xs ≠ [] ∧ xs.Nodup
  /-- no two entries are taken for one -/
  apart : d.index.entries.Pairwise (fun a b => ¬ TakenForOne a b)
  /-- there is no number beside a list -/
  unmixed : ∀ xs v, Entry.list xs ∈ d.index.entries → Entry.one (.num v) ∉ d.index.entries

/-- What can be loaded. -/
structure Fits (broadcast : Bool) (d : Definition V) : Prop where
  /-- every entry has a label for each dimension -/
  labelled : ∀ e ∈ d.index.entries, e.labs.length = d.dims.length
  /-- every entry is there once -/
  once : (d.index.entries.map Entry.labs).Nodup
  /-- a list of data has an item for each entry -/
  each : ∀ xs, d.data = .list xs → xs.length = d.index.entries.length
  /-- one item of data for more than one entry must be allowed -/
  single : ∀ x, d.data = .one (some x) → broadcast = true ∨ d.index.entries.length = 1
  /-- and so must no data -/
  nothing : d.data = .one none → broadcast = true ∨ d.index.entries.length = 0

/-- A coordinate is given, between `-b` and `b`. -/
def Coord.Given (b : Rat) : Coord → Prop
  | .none => False
  | .int i => -b ≤ (i : Rat) ∧ (i : Rat) ≤ b
  | .flt q => -b ≤ q ∧ q ≤ b

end DataSchema
end Calliope
