import Verif.Model.Imports

/-!
# Model of saving and loading attributes (`calliope.io`)

Source: `/repo/src/calliope/io.py:31-180`, `/repo/src/calliope/util/tools.py:31-49`.

YAML text itself is a parameter (`Yaml`); the NetCDF file is `store` below.
-/

namespace Calliope
namespace Serialise

/-- Element of a list or set attribute: a string, or something else. -/
inductive Elem where
  | str (s : String)
  | other (n : Nat)
  deriving DecidableEq, Repr

/-- An attribute value.  Sets are kept as lists without fixing what order means; `arr0` is the
empty array a file holds for an empty list; `other` is any value the code passes through
(floats, ...). -/
inductive AVal where
  | str (s : String)
  | int (i : Int)
  | bool (b : Bool)
  | none
  | dict (d : Def)
  | list (l : List Elem)
  | set (l : List Elem)
  | arr0
  | other (n : Nat)
  deriving DecidableEq, Repr

/-- An attribute dictionary, in insertion order. -/
abbrev Attrs := List (String × AVal)

/-- `attrs[k] = v`. -/
def put : Attrs → String → AVal → Attrs
  | [], k, v => [(k, v)]
  | (k', v') :: r, k, v => if k' = k then (k', v) :: r else (k', v') :: put r k v

/-- `attrs.pop(k, ...)`: what remains. -/
def drop (a : Attrs) (k : String) : Attrs := a.filter (fun e => e.1 ≠ k)

/-- `[k for k, v in attrs.items() if p(v)]`. -/
def keysWhere (p : AVal → Bool) (a : Attrs) : List String := (a.filter (fun e => p e.2)).map Prod.fst

/-- `for attr in ks: attrs[attr] = f(attrs[attr])`, stopping at the first exception. -/
def forKeys (f : AVal → Except Err AVal) : List String → Attrs → Except Err Attrs
  | [], a => .ok a
  | k :: ks, a =>
      match a.lookup k with
      | Option.none => .error .keyError
      | some v => match f v with
        | .error e => .error e
        | .ok v' => forKeys f ks (put a k v')

/-- The same loop for an assignment that cannot fail. -/
def mapKeys (f : AVal → AVal) : List String → Attrs → Attrs
  | [], a => a
  | k :: ks, a =>
      match a.lookup k with
      | Option.none => mapKeys f ks a
      | some v => mapKeys f ks (put a k (f v))

/-- ruamel.yaml: text of a dictionary and back. -/
structure Yaml where
  dump : Def → String
  load : String → Except Err Def

def isSingle : AVal → Bool
  | .list [_] => true
  | _ => false
def isDict : AVal → Bool
  | .dict _ => true
  | _ => false
def isBool : AVal → Bool
  | .bool _ => true
  | _ => false
def isNone : AVal → Bool
  | .none => true
  | _ => false
def isSet : AVal → Bool
  | .set _ => true
  | _ => false

/-- `any(not isinstance(i, str) for i in attrs[attr])` for a list attribute (io.py:101-104). -/
def badList : AVal → Bool
  | .list l => l.any (fun e => match e with | .str _ => false | .other _ => true)
  | _ => false

/-- A list of attribute names, as an attribute value. -/
def names (l : List String) : AVal := .list (l.map .str)

/-- `to_yaml` of a dictionary attribute (io.py:82). -/
def dumpVal (Y : Yaml) : AVal → AVal
  | .dict d => .str (Y.dump d)
  | v => v
/-- `int(x)` of a boolean attribute (io.py:88). -/
def intVal : AVal → AVal
  | .bool b => .int (if b then 1 else 0)
  | v => v
/-- `list(x)` of a set attribute (io.py:99). -/
def listVal : AVal → AVal
  | .set l => .list l
  | v => v

/-- One conversion block of `_serialise`, e.g. io.py:79-82: find the attributes of a kind, note
their names under `name`, convert them. -/
def convBlock (name : String) (p : AVal → Bool) (f : AVal → AVal) (a : Attrs) : Attrs :=
  mapKeys f (keysWhere p a) (put a name (names (keysWhere p a)))

/-- io.py:74-94: single-element lists are noted, then dictionaries, booleans and `None` are
converted. -/
def convertAll (Y : Yaml) (attrs : Attrs) : Attrs :=
  convBlock "serialised_nones" isNone (fun _ => .str "None")
    (convBlock "serialised_bools" isBool intVal
      (convBlock "serialised_dicts" isDict (dumpVal Y)
        (put attrs "serialised_single_element_list" (names (keysWhere isSingle attrs)))))

/-- A list attribute of length one (io.py:110). -/
def isSingleAt (a : Attrs) (k : String) : Bool :=
  match a.lookup k with
  | some v => isSingle v
  | Option.none => false

/-- `_serialise` (io.py:58-111).  The second component is `false` when line 105 raises `TypeError`;
the first is the dictionary as it then stands (changes are made in place). -/
def serialise (Y : Yaml) (attrs : Attrs) : Attrs × Bool :=
  let a := convertAll Y attrs
  let sets := keysWhere isSet a
  let b := mapKeys listVal sets a
  if b.any (fun e => badList e.2) then (b, false)
  else
    (put (put b "serialised_sets" (names sets)) "serialised_single_element_list"
      (names (keysWhere isSingle attrs ++ sets.filter (isSingleAt b))), true)

/-- `listify` (tools.py:31-49). -/
def listify : AVal → List Elem
  | .none => []
  | .str s => [.str s]
  | .list l => l
  | .set l => l
  | .arr0 => []
  | .dict d => d.keys.map .str
  | .int i => [.other i.toNat]
  | .bool b => [.other b.toNat]
  | .other n => [.other n]

/-- Attribute names out of a list: a non-string is no key of the dictionary. -/
def asName : Elem → String
  | .str s => s
  | .other _ => "\u0000"

/-- `_pop_serialised_list` (io.py:50-55). -/
def popList (a : Attrs) (k : String) : List String × Attrs :=
  match a.lookup k with
  | Option.none => ([], a)
  | some v => ((listify v).map asName, drop a k)

/-- `set(x)` of an attribute value (io.py:133). -/
def toSet : AVal → Except Err AVal
  | .list l => .ok (.set l)
  | .set l => .ok (.set l)
  | .arr0 => .ok (.set [])
  | .str s => .ok (.set (s.toList.map (fun c => .str (String.singleton c))))
  | _ => .error .typeError

/-- `read_rich_yaml` of a text (io.py:231-254): parse, then resolve imports, which a text cannot
have (io.py:279-280). -/
def readText (Y : Yaml) (s : String) : Except Err Def :=
  match Y.load s with
  | .error e => .error e
  | .ok d => match Imports.resolveImports (fun _ => Option.none) false false d with
    | some r => r
    | Option.none => .error .valueError

/-- Python `bool(x)` (io.py:127). -/
def toBool : AVal → AVal
  | .int i => .bool (i ≠ 0)
  | .bool b => .bool b
  | .none => .bool false
  | .str s => .bool (s ≠ "")
  | .list l => .bool (l ≠ [])
  | .set l => .bool (l ≠ [])
  | .dict d => .bool (d ≠ .nil)
  | .arr0 => .bool false
  | .other _ => .bool true

/-- `_deserialise` (io.py:114-133). -/
def deserialise (Y : Yaml) (a : Attrs) : Except Err Attrs :=
  let (dicts, a) := popList a "serialised_dicts"
  match forKeys (fun v => match v with
      | .str s => match readText Y s with
        | .ok d => .ok (.dict d)
        | .error e => .error e
      | _ => .error .typeError) dicts a with
  | .error e => .error e
  | .ok a =>
    let (bools, a) := popList a "serialised_bools"
    match forKeys (fun v => .ok (toBool v)) bools a with
    | .error e => .error e
    | .ok a =>
      let (nones, a) := popList a "serialised_nones"
      let a := nones.foldl (fun a k => put a k .none) a
      let (singles, a) := popList a "serialised_single_element_list"
      match forKeys (fun v => .ok (.list (listify v))) singles a with
      | .error e => .error e
      | .ok a =>
        let (sets, a) := popList a "serialised_sets"
        forKeys toSet sets a

/-- What the file gives back for an attribute written to it: a list of one string is stored as
that string, an empty list as an empty array (docstring of `_serialise`, io.py:63-64). -/
def store : AVal → AVal
  | .list [.str s] => .str s
  | .list [] => .arr0
  | v => v

def storeAll (a : Attrs) : Attrs := a.map (fun e => (e.1, store e.2))

/-- A dataset, as far as attributes go. -/
structure Dataset where
  attrs : Attrs
  vars : List (String × Attrs)
  coords : List (String × Attrs)
  deriving DecidableEq, Repr

/-- `for var in ...: _serialise(var.attrs)` (io.py:148-151): stops at the first failure, leaving
the earlier ones changed. -/
def serialiseAll (Y : Yaml) : List (String × Attrs) → List (String × Attrs) × Bool
  | [] => ([], true)
  | (n, a) :: r =>
      match serialise Y a with
      | (a', false) => ((n, a') :: r, false)
      | (a', true) =>
          let (r', ok) := serialiseAll Y r
          ((n, a') :: r', ok)

/-- `for var in ...: _deserialise(var.attrs)` (io.py:42-43, 177-180). -/
def deserialiseAll (Y : Yaml) : List (String × Attrs) → Except Err (List (String × Attrs))
  | [] => .ok []
  | (n, a) :: r =>
      match deserialise Y a with
      | .error e => .error e
      | .ok a' => match deserialiseAll Y r with
        | .error e => .error e
        | .ok r' => .ok ((n, a') :: r')

/-- How a call to `save_netcdf` ended. -/
inductive Outcome where
  | returned | raised
  deriving DecidableEq, Repr

/-- `save_netcdf` (io.py:136-180): the dataset in memory afterwards, what was handed to the file,
and the outcome.  `fails` says whether writing the file raises (disk full, ...).  When
`_deserialise` itself raises inside `finally`, the variables before the failing one are already
restored; the model does not say which. -/
def save (Y : Yaml) (fails : Bool) (ds : Dataset) (kwargs : Attrs) :
    Dataset × Option Dataset × Outcome :=
  let original := ds.attrs                                                     -- line 144
  let a := kwargs.foldl (fun a e => put a e.1 e.2) ds.attrs                    -- lines 145-146
  match serialise Y a with                                                     -- line 148
  | (a, false) => ({ ds with attrs := a }, Option.none, .raised)
  | (a, true) =>
    match serialiseAll Y ds.vars with                                          -- lines 149-150
    | (vs, false) => ({ ds with attrs := a, vars := vs }, Option.none, .raised)
    | (vs, true) =>
      match serialiseAll Y ds.coords with                                      -- lines 151-152
      | (cs, false) => (⟨a, vs, cs⟩, Option.none, .raised)
      | (cs, true) =>
        let file := if fails then Option.none else some (⟨a, vs, cs⟩ : Dataset)
        match deserialiseAll Y vs with                                         -- lines 175-180
        | .error _ => (⟨original, vs, cs⟩, file, .raised)
        | .ok vs' => match deserialiseAll Y cs with
          | .error _ => (⟨original, vs', cs⟩, file, .raised)
          | .ok cs' => (⟨original, vs', cs'⟩, file, if fails then .raised else .returned)

/-- `read_netcdf` of one group (io.py:37-46): attributes of the dataset and of its data variables
are deserialised, those of coordinates are not. -/
def load (Y : Yaml) (file : Dataset) : Except Err Dataset :=
  match deserialise Y (storeAll file.attrs) with
  | .error e => .error e
  | .ok a => match deserialiseAll Y (file.vars.map (fun v => (v.1, storeAll v.2))) with
    | .error e => .error e
    | .ok vs => .ok ⟨a, vs, file.coords.map (fun v => (v.1, storeAll v.2))⟩

end Serialise
end Calliope
