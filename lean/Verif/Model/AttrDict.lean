/-!
# Model of `calliope.attrdict.AttrDict`

Source: `/repo/src/calliope/attrdict.py` (256 lines).

A nested dictionary is a value of `Dict α`.  `α` is the type of non-dictionary,
non-`None` values (strings, numbers, booleans, lists, ...), which this module treats
as opaque.  Python's `None` is `Option.none` in leaf position.

Dotted keys: the methods take strings and split them at the first `"."`
(`key.split(".", 1)`, attrdict.py:93,124,147).  The model takes the list of segments
instead (`Path`); `Verif/Model/Text.lean` relates strings and segment lists.

Python exceptions are values of `Err`.  State after an exception is not modelled here
(`Except` carries no state); `Verif/Model/AttrDictHeap.lean` models in-place mutation.
-/

namespace Calliope

/-- A single (dot-free) dictionary key. Integer keys are converted to strings on
construction (attrdict.py:64-66), so strings are all there is. -/
abbrev Key := String

/-- A dotted key, as its list of segments. -/
abbrev Path := List Key

/-- Exceptions the modelled code can raise. -/
inductive Err where
  | keyError
  | attributeError
  | typeError
  | valueError
  | indexError
  | modelError
  | backendError
  deriving DecidableEq, Repr

deriving instance DecidableEq for Except

/-- An `AttrDict` (attrdict.py:21): insertion-ordered entries, each holding a
non-dictionary value (`leaf`; `none` is Python's `None`) or a nested `AttrDict` (`sub`). -/
inductive Dict (α : Type) where
  | nil
  | leaf (k : Key) (a : Option α) (rest : Dict α)
  | sub (k : Key) (d : Dict α) (rest : Dict α)
  deriving DecidableEq, Repr

/-- A value stored under a key. -/
inductive Val (α : Type) where
  | leaf (a : Option α)
  | dict (d : Dict α)
  deriving DecidableEq, Repr

namespace Dict
variable {α : Type}

/-- `self[key]` of a Python dict, `none` standing for the `KeyError` (dict.__getitem__,
used at attrdict.py:95,127,135,141,149). -/
def get1 : Dict α → Key → Option (Val α)
  | .nil, _ => none
  | .leaf k' a rest, k => if k' = k then some (.leaf a) else rest.get1 k
  | .sub k' d rest, k => if k' = k then some (.dict d) else rest.get1 k

/-- `self[key] = value` of a Python dict (attrdict.py:97,101,112): overwrite in place when
the key exists, append otherwise. -/
def put1 : Dict α → Key → Val α → Dict α
  | .nil, k, .leaf a => .leaf k a .nil
  | .nil, k, .dict d => .sub k d .nil
  | .leaf k' a rest, k, v =>
      if k' = k then (match v with | .leaf b => .leaf k' b rest | .dict d => .sub k' d rest)
      else .leaf k' a (rest.put1 k v)
  | .sub k' e rest, k, v =>
      if k' = k then (match v with | .leaf b => .leaf k' b rest | .dict d => .sub k' d rest)
      else .sub k' e (rest.put1 k v)

/-- `del self[key]` of a Python dict (attrdict.py:149,155,158), for a key that exists;
callers check existence. -/
def del1 : Dict α → Key → Dict α
  | .nil, _ => .nil
  | .leaf k' a rest, k => if k' = k then rest else .leaf k' a (rest.del1 k)
  | .sub k' d rest, k => if k' = k then rest else .sub k' d (rest.del1 k)

/-- Key membership and keys at the top level, in insertion order (`self.keys()`). -/
def keys : Dict α → List Key
  | .nil => []
  | .leaf k _ rest => k :: rest.keys
  | .sub k _ rest => k :: rest.keys

/-- The loop `for k, v in value.items(): self[key].set_key(k, v)` of `set_key`
(attrdict.py:109-110), run on the dictionary `t = self[key]`: `v` overwrites, except that a
dictionary given for an existing key is merged recursively.  Merging a non-empty dictionary
into a non-dictionary fails with `AttributeError` (`5 .set_key`), an empty one is a no-op. -/
def mergeInto (t : Dict α) : Dict α → Except Err (Dict α)
  | .nil => .ok t
  | .leaf k a rest => mergeInto (t.put1 k (.leaf a)) rest
  | .sub k d rest =>
      match t.get1 k with
      | none => mergeInto (t.put1 k (.dict d)) rest
      | some (.dict u) =>
          match mergeInto u d with
          | .ok u' => mergeInto (t.put1 k (.dict u')) rest
          | .error e => .error e
      | some (.leaf _) =>
          match d with
          | .nil => mergeInto t rest
          | _ => .error .attributeError

/-- `set_key` for a key without dots (attrdict.py:107-112). -/
def setKey1 (self : Dict α) (k : Key) (v : Val α) : Except Err (Dict α) :=
  match v with
  | .leaf a => .ok (self.put1 k (.leaf a))
  | .dict d =>
      match self.get1 k with
      | none => .ok (self.put1 k (.dict d))
      | some (.dict u) =>
          match mergeInto u d with
          | .ok u' => .ok (self.put1 k (.dict u'))
          | .error e => .error e
      | some (.leaf _) =>
          match d with
          | .nil => .ok self
          | _ => .error .attributeError

/-- `AttrDict.set_key` (attrdict.py:81-112).  The empty path stands for no Python call and
is given the error of looking up a missing key.
Note lines 96-98: *any* `KeyError`, including the one raised deeper at line 106, makes this
level replace `self[key]` by an empty dictionary and try again. -/
def setKey (self : Dict α) : Path → Val α → Except Err (Dict α)
  | [], _ => .error .keyError
  | [k], v => self.setKey1 k v
  | k :: k2 :: ks, v =>
      -- `self[key] = AttrDict(); self[key].set_key(remainder, value)` (lines 97-98, 101-102)
      let fresh : Except Err (Dict α) :=
        match setKey .nil (k2 :: ks) v with
        | .ok d' => .ok (self.put1 k (.dict d'))
        | .error e => .error e
      match self.get1 k with
      | none => fresh
      | some (.dict d) =>
          match setKey d (k2 :: ks) v with
          | .ok d' => .ok (self.put1 k (.dict d'))
          | .error .keyError => fresh
          | .error .attributeError => .error .keyError
          | .error e => .error e
      | some (.leaf none) => fresh
      | some (.leaf (some _)) => .error .keyError

/-- `AttrDict.get_key` without a default (attrdict.py:114-142). -/
def getKey (self : Dict α) : Path → Except Err (Val α)
  | [] => .error .keyError
  | [k] => match self.get1 k with
      | some v => .ok v
      | none => .error .keyError
  | k :: k2 :: ks =>
      match self.get1 k with
      | none => .error .keyError
      | some (.leaf _) => .error .attributeError
      | some (.dict d) => getKey d (k2 :: ks)

/-- `AttrDict.get_key` with a default (attrdict.py:125-133,138-139). -/
def getKeyD (self : Dict α) (p : Path) (default : Val α) : Val α :=
  match p with
  | [] => default
  | [k] => match self.get1 k with
      | some v => v
      | none => default
  | k :: k2 :: ks =>
      match self.get1 k with
      | none => default
      | some (.leaf _) => default
      | some (.dict d) => getKeyD d (k2 :: ks) default

/-- `AttrDict.del_key` (attrdict.py:144-158).  `del self[key][remainder]` on a
non-dictionary is a `TypeError`.  The remainder is first tried as a literal key; with
dot-free keys this succeeds only for a single segment, which is what line 151 would do. -/
def delKey (self : Dict α) : Path → Except Err (Dict α)
  | [] => .error .keyError
  | [k] => match self.get1 k with
      | some _ => .ok (self.del1 k)
      | none => .error .keyError
  | k :: k2 :: ks =>
      match self.get1 k with
      | none => .error .keyError
      | some (.leaf _) => .error .typeError
      | some (.dict d) =>
          match delKey d (k2 :: ks) with
          | .error e => .error e
          | .ok d' =>
              match d' with
              | .nil => .ok (self.del1 k)
              | _ => .ok (self.put1 k (.dict d'))

/-- `AttrDict.keys_nested()` (attrdict.py:187-210): leaf paths in order; an empty
dictionary counts as a leaf (line 203). -/
def keysNested : Dict α → List Path
  | .nil => []
  | .leaf k _ rest => [k] :: rest.keysNested
  | .sub k d rest =>
      (match d with
       | .nil => [[k]]
       | _ => d.keysNested.map (k :: ·)) ++ rest.keysNested

/-- The loop of `as_dict_flat` (attrdict.py:182-184) over a list of keys. -/
def flatOf (self : Dict α) : List Path → Except Err (List (Path × Val α))
  | [] => .ok []
  | p :: ps =>
      match self.getKey p with
      | .error e => .error e
      | .ok v => match flatOf self ps with
          | .error e => .error e
          | .ok r => .ok ((p, v) :: r)

/-- `as_dict_flat` (attrdict.py:179-185). -/
def asDictFlat (self : Dict α) : Except Err (List (Path × Val α)) :=
  self.flatOf self.keysNested

/-- `AttrDict(source_dict)` via `init_from_dict` (attrdict.py:55-79) for a source whose
(possibly dotted) keys are given as paths: `set_key` for each item in turn. -/
def initFrom : Dict α → List (Path × Val α) → Except Err (Dict α)
  | self, [] => .ok self
  | self, (p, v) :: items =>
      match self.setKey p v with
      | .error e => .error e
      | .ok self' => initFrom self' items

/-- `isinstance(v, AttrDict)`. -/
def _root_.Calliope.Val.isDict : Val α → Bool
  | .dict _ => true
  | .leaf _ => false

/-- `v is None`. -/
def _root_.Calliope.Val.isNone : Val α → Bool
  | .leaf none => true
  | _ => false

/-- One iteration of the override loop of `union` (attrdict.py:244-253).
`selfKeys` is the snapshot taken at line 232. -/
def unionStep (allowOverride : Bool) (selfKeys : List Path) (other : Dict α)
    (self : Dict α) (k : Path) : Except Err (Dict α) :=
  if !allowOverride && selfKeys.contains k then .error .keyError
  else
    match other.getKey k with
    | .error e => .error e
    | .ok v =>
        -- `other_value is None and isinstance(self.get_key(k, None), AttrDict)`
        if v.isNone && (self.getKeyD k (.leaf none)).isDict then .ok self
        else self.setKey k v

/-- The override loop of `union` (attrdict.py:243-253). -/
def unionLoop (allowOverride : Bool) (selfKeys : List Path) (other : Dict α) :
    Dict α → List Path → Except Err (Dict α)
  | self, [] => .ok self
  | self, k :: ks =>
      match unionStep allowOverride selfKeys other self k with
      | .error e => .error e
      | .ok self' => unionLoop allowOverride selfKeys other self' ks

/-- `union(other, allow_override)` with `allow_replacement=False` (attrdict.py:212-253). -/
def union (self other : Dict α) (allowOverride : Bool) : Except Err (Dict α) :=
  unionLoop allowOverride self.keysNested other self other.keysNested

/-- `WIPE_KEY` (attrdict.py:235). -/
def wipeKey : Key := "_REPLACE_"

/-- `WIPE_KEY in k` (attrdict.py:236,238).  The code tests for the text anywhere in the
dotted key; the model tests for a segment equal to it, so keys that merely contain the text
inside a longer segment are outside the model. -/
def hasWipe (k : Path) : Bool := k.contains wipeKey

/-- `k.split("." + WIPE_KEY)[0]` (attrdict.py:238): the part before the first
`._REPLACE_`; the whole key when the text only occurs in first position. -/
def wipePrefix : Path → Path
  | [] => []
  | k :: ks => k :: ks.takeWhile (· ≠ wipeKey)

/-- The replacement loop of `union` (attrdict.py:254-256). -/
def wipeLoop (other : Dict α) : Dict α → List Path → Except Err (Dict α)
  | self, [] => .ok self
  | self, k :: ks =>
      match self.delKey k with
      | .error e => .error e
      | .ok self1 =>
          match other.getKey (k ++ [wipeKey]) with
          | .error e => .error e
          | .ok v =>
              match self1.setKey k v with
              | .error e => .error e
              | .ok self2 => wipeLoop other self2 ks

/-- `union(other, allow_override, allow_replacement=True)` (attrdict.py:212-256). -/
def unionReplace (self other : Dict α) (allowOverride : Bool) : Except Err (Dict α) :=
  let otherKeys := other.keysNested
  let overrideKeys := otherKeys.filter (fun k => !hasWipe k)
  let wipeKeys := (otherKeys.filter hasWipe).map wipePrefix
  match unionLoop allowOverride self.keysNested other self overrideKeys with
  | .error e => .error e
  | .ok self' => wipeLoop other self' wipeKeys

end Dict
end Calliope
