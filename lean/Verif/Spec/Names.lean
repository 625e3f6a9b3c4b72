import Mathlib.Data.List.Forall2
import Verif.Model.Names
import Verif.Spec.Runs

/-!
# Specification: names of solver objects
-/

namespace Calliope
namespace Names

open Runs (Str numeral)

/-- The text of a coordinate, times to the minute. -/
def labelOf (W : Printing) : Coord → Str
  | .text s => s
  | .whole n => numeral n
  | .time t => W.stamp (t / 60)

/-- `component[a, b]`, or `component` alone without dimensions. -/
def fullName (component : Str) (labels : List Str) : Str :=
  if labels = [] then component
  else component ++ "[".toList ++ [',', ' '].intercalate labels ++ "]".toList

/-- `group[component]` -/
def inGroup (group name : Str) : Str := group ++ "[".toList ++ name ++ "]".toList

/-- What is true of Python, numpy and pandas. -/
structure Lawful (W : Printing) : Prop where
  /-- what is printed to the minute is read back as that minute -/
  back : ∀ m, W.parse (W.stamp m) = 60 * m
  /-- such a text has no comma and no backslash -/
  comma : ∀ m, ',' ∉ W.stamp m
  backslash : ∀ m, '\\' ∉ W.stamp m
  /-- a replacement text without a backslash is inserted as it is -/
  plain : ∀ s, '\\' ∉ s → W.expand s = .ok s

/-- A text without a comma followed by a blank, and without a backslash; a time on a whole minute. -/
def Plain : Coord → Prop
  | .text s => ¬ [',', ' '] <:+: s ∧ '\\' ∉ s
  | .whole _ => True
  | .time t => 60 ∣ t

/-- Both are texts, both are numbers or both are times. -/
def SameKind : Coord → Coord → Prop
  | .text _, .text _ => True
  | .whole _, .whole _ => True
  | .time _, .time _ => True
  | _, _ => False

/-- A name of a component or group: no brackets, and no digit at the start. -/
structure Word (n : Str) : Prop where
  opening : '[' ∉ n
  closing : ']' ∉ n
  start : ∀ c ∈ n.head?, c.isDigit = false

/-- The coordinates of an array: each object has as many, of the same kinds. -/
def Shaped (coords : List (List Coord)) : Prop := ∀ a ∈ coords, ∀ b ∈ coords, List.Forall₂ SameKind a b

/-- What can be added so that names can be told apart. -/
structure Proper (m : Made) : Prop where
  name : Word m.name
  group : Word m.group
  shape : Shaped m.coords
  plain : ∀ cs ∈ m.coords, ∀ c ∈ cs, Plain c

/-- All that a call adds satisfies `P`. -/
def AllMade (P : Made → Prop) : Call → Prop
  | .add m => P m
  | .update (some made) => ∀ m ∈ made, P m
  | _ => True

/-- The call does not add a component on its own. -/
def NoAdd : Call → Prop
  | .add _ => False
  | _ => True

/-- An object of a component in the backend. -/
def Held (s : State) (n : Str) (c : Comp) (i : Item) : Prop := (n, c) ∈ s.comps ∧ i ∈ c.items

/-- The components with solver objects that a name is asked of. -/
def Objects (c : Comp) : Prop :=
  c.group ∈ ["parameters".toList, "variables".toList, "constraints".toList, "piecewise_constraints".toList]

end Names
end Calliope
