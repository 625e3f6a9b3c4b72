/-!
# Copies of dictionaries with lists

Source: `/repo/src/calliope/attrdict.py:29-79,160-177`, `/repo/src/calliope/io.py:294-325`.

Dictionaries and lists are objects in a heap, referred to by address, so that two places can hold the same object.

Simplifications: keys are texts without dots (others are the subject of `Model/AttrDict.lean`), so that `set_key` on a new
dictionary is `self[key] = value`; a new dictionary appears in the heap when it has all its entries, which nothing can tell
from one that is filled step by step because no other object holds it before.  `fuel` bounds the depth of calls; `none` is
its end, or a call that Python refuses.
-/

namespace Calliope
namespace Copying

abbrev Addr := Nat

/-- A value: no dictionary and no list, or a reference to an object. -/
inductive Value (S : Type) where
  | leaf (s : S)
  | ref (a : Addr)
  deriving DecidableEq, Repr

/-- A dictionary (`attr`: it is an `AttrDict`) or a list. -/
inductive Obj (S : Type) where
  | dict (attr : Bool) (es : List (String × Value S))
  | list (xs : List (Value S))
  deriving DecidableEq, Repr

abbrev Heap (S : Type) := List (Obj S)

variable {S : Type}

/-- `isinstance(v, dict)`. -/
def isDict (h : Heap S) : Value S → Option Addr
  | .leaf _ => none
  | .ref a => match h[a]? with
    | some (.dict _ _) => some a
    | _ => none

/-- `isinstance(v, AttrDict)`. -/
def isAttr (h : Heap S) : Value S → Option Addr
  | .leaf _ => none
  | .ref a => match h[a]? with
    | some (.dict true _) => some a
    | _ => none

/-- `v[i]` of a list. -/
def itemAt (h : Heap S) (l : Addr) (i : Nat) : Option (Value S) :=
  match h[l]? with
  | some (.list xs) => xs[i]?
  | _ => none

/-- `v[i] = w`: the list itself is changed. -/
def setItem (h : Heap S) (l : Addr) (i : Nat) (w : Value S) : Heap S :=
  match h[l]? with
  | some (.list xs) => h.set l (.list (xs.set i w))
  | _ => h

/-- `for i in range(len(v)): if isinstance(v[i], dict): v[i] = AttrDict(v[i])` (attrdict.py:72-76); `f` is `AttrDict`. -/
def convert (f : Heap S → Addr → Option (Addr × Heap S)) (l : Addr) : Nat → Nat → Heap S → Option (Heap S)
  | 0, _, h => some h
  | n + 1, i, h =>
    match itemAt h l i with
    | none => none
    | some v =>
      match isDict h v with
      | none => convert f l n (i + 1) h
      | some d =>
        match f h d with
        | none => none
        | some (w, h') => convert f l n (i + 1) (setItem h' l i (.ref w))

/-- The value stored for a value of the source (attrdict.py:68-79). -/
def initValue (f : Heap S → Addr → Option (Addr × Heap S)) (h : Heap S) : Value S → Option (Value S × Heap S)
  | .leaf s => some (.leaf s, h)
  | .ref a =>
    match h[a]? with
    | none => none
    | some (.dict _ _) =>
      match f h a with
      | none => none
      | some (n, h') => some (.ref n, h')
    | some (.list xs) =>
      match convert f a xs.length 0 h with
      | none => none
      | some h' => some (.ref a, h')

/-- The loop of `init_from_dict` (attrdict.py:55-79). -/
def initEntries (f : Heap S → Addr → Option (Addr × Heap S)) :
    Heap S → List (String × Value S) → Option (List (String × Value S) × Heap S)
  | h, [] => some ([], h)
  | h, (k, v) :: rest =>
    match initValue f h v with
    | none => none
    | some (w, h1) =>
      match initEntries f h1 rest with
      | none => none
      | some (es, h2) => some ((k, w) :: es, h2)

/-- `AttrDict(source_dict)` (attrdict.py:29-45). -/
def attrDict : Nat → Heap S → Addr → Option (Addr × Heap S)
  | 0, _, _ => none
  | fuel + 1, h, r =>
    match h[r]? with
    | some (.dict _ es) =>
      match initEntries (attrDict fuel) h es with
      | none => none
      | some (es', h') => some (h'.length, h' ++ [.dict true es'])
    | _ => none

/-- An item of a list in `as_dict_nested` (attrdict.py:173-174). -/
def plainItem (f : Heap S → Addr → Option (Addr × Heap S)) (h : Heap S) (v : Value S) : Option (Value S × Heap S) :=
  match isAttr h v with
  | none => some (v, h)
  | some d =>
    match f h d with
    | none => none
    | some (n, h') => some (.ref n, h')

/-- The items of a list in `as_dict_nested`. -/
def plainItems (f : Heap S → Addr → Option (Addr × Heap S)) :
    Heap S → List (Value S) → Option (List (Value S) × Heap S)
  | h, [] => some ([], h)
  | h, v :: rest =>
    match plainItem f h v with
    | none => none
    | some (w, h1) =>
      match plainItems f h1 rest with
      | none => none
      | some (ws, h2) => some (w :: ws, h2)

/-- A value in `as_dict_nested` (attrdict.py:170-176). -/
def plainValue (f : Heap S → Addr → Option (Addr × Heap S)) (h : Heap S) : Value S → Option (Value S × Heap S)
  | .leaf s => some (.leaf s, h)
  | .ref a =>
    match h[a]? with
    | none => none
    | some (.dict true _) =>
      match f h a with
      | none => none
      | some (n, h') => some (.ref n, h')
    | some (.dict false _) => some (.ref a, h)
    | some (.list xs) =>
      match plainItems f h xs with
      | none => none
      | some (ws, h') => some (.ref h'.length, h' ++ [.list ws])

/-- The loop of `as_dict_nested` (attrdict.py:167-177). -/
def plainEntries (f : Heap S → Addr → Option (Addr × Heap S)) :
    Heap S → List (String × Value S) → Option (List (String × Value S) × Heap S)
  | h, [] => some ([], h)
  | h, (k, v) :: rest =>
    match plainValue f h v with
    | none => none
    | some (w, h1) =>
      match plainEntries f h1 rest with
      | none => none
      | some (es, h2) => some ((k, w) :: es, h2)

/-- `self.as_dict()` (attrdict.py:160-177): a plain dictionary. -/
def asDict : Nat → Heap S → Addr → Option (Addr × Heap S)
  | 0, _, _ => none
  | fuel + 1, h, r =>
    match h[r]? with
    | some (.dict _ es) =>
      match plainEntries (asDict fuel) h es with
      | none => none
      | some (es', h') => some (h'.length, h' ++ [.dict false es'])
    | _ => none

/-- `dict.copy()` of a plain dictionary: a new object with the same values. -/
def shallow (h : Heap S) (r : Addr) : Option (Addr × Heap S) :=
  match h[r]? with
  | some (.dict _ es) => some (h.length, h ++ [.dict false es])
  | _ => none

/-- `self.copy()` (attrdict.py:47-49). -/
def copy (fuel : Nat) (h : Heap S) (r : Addr) : Option (Addr × Heap S) :=
  match asDict fuel h r with
  | none => none
  | some (d, h1) =>
    match shallow h1 d with
    | none => none
    | some (e, h2) => attrDict fuel h2 e

/-- The dictionary that `to_yaml` prepares and writes (io.py:300): `AttrDict(data).copy()`. -/
def prepared (fuel : Nat) (h : Heap S) (r : Addr) : Option (Addr × Heap S) :=
  match attrDict fuel h r with
  | none => none
  | some (n, h1) => copy fuel h1 n

end Copying
end Calliope
