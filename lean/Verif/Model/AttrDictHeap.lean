import Verif.Model.ModelDefinition

/-!
# `AttrDict` objects with identity

Source: `/repo/src/calliope/attrdict.py`, `/repo/src/calliope/preprocess/model_definition.py`.

In `Model/AttrDict.lean` a dictionary is a tree.  In Python it is an object, `set_key` mutates
it in place, and `self[key] = value` (attrdict.py:112) stores the *same* object that `value`
is.  Here dictionaries live in a heap and are referred to by address, so two keys can hold one
object.  State changes made before an exception persist, as in Python.

Functions that follow references take `fuel`; running out of it is `none` (it happens only if
`fuel` is smaller than the size of the data, or for cyclic structures).
-/

namespace Calliope
namespace HeapModel

abbrev Addr := Nat

/-- A stored value: not a dictionary, or a reference to a dictionary object. -/
inductive HVal where
  | leaf (a : Option Scalar)
  | ref (r : Addr)
  deriving DecidableEq, Repr

/-- The entries of one dictionary object, in insertion order. -/
abbrev Entries := List (Key × HVal)

/-- The dictionary objects; the address of an object is its position. -/
abbrev Heap := List Entries

/-- A computation: `none` = out of fuel; otherwise a result or an exception, and the heap. -/
def HM (β : Type) : Type := Heap → Option (Except Err β × Heap)

namespace HM
def pure {β} (b : β) : HM β := fun h => some (.ok b, h)
def bind {β γ} (m : HM β) (f : β → HM γ) : HM γ := fun h =>
  match m h with
  | none => none
  | some (.error e, h') => some (.error e, h')
  | some (.ok b, h') => f b h'
def raise {β} (e : Err) : HM β := fun h => some (.error e, h)
def stuck {β} : HM β := fun _ => none
/-- `try: m except: handler`, the heap changes of `m` staying in place. -/
def tryCatch {β} (m : HM β) (handler : Err → HM β) : HM β := fun h =>
  match m h with
  | none => none
  | some (.error e, h') => handler e h'
  | some (.ok b, h') => some (.ok b, h')
end HM

instance : Monad HM where
  pure := HM.pure
  bind := HM.bind

/-- All entries of an object (`d.items()`). -/
def items (r : Addr) : HM Entries := fun h => some (.ok (h.getD r []), h)

/-- `self[key]`, `none` standing for a missing key. -/
def get? (r : Addr) (k : Key) : HM (Option HVal) := fun h => some (.ok ((h.getD r []).lookup k), h)

/-- Overwrite in place or append. -/
def putE : Entries → Key → HVal → Entries
  | [], k, v => [(k, v)]
  | (k', v') :: es, k, v => if k' = k then (k', v) :: es else (k', v') :: putE es k v

/-- `self[key] = value` (attrdict.py:97,101,112). -/
def put (r : Addr) (k : Key) (v : HVal) : HM Unit := fun h =>
  some (.ok (), h.set r (putE (h.getD r []) k v))

/-- `del self[key]` (attrdict.py:149,155,158). -/
def del (r : Addr) (k : Key) : HM Unit := fun h =>
  some (.ok (), h.set r ((h.getD r []).filter (fun e => decide (e.1 ≠ k))))

/-- `AttrDict()`. -/
def new : HM Addr := fun h => some (.ok h.length, h ++ [[]])

/-- `self.set_key(key, value)` (attrdict.py:81-112). -/
def setKey : Nat → Addr → Path → HVal → HM Unit
  | 0, _, _, _ => HM.stuck
  | _ + 1, _, [], _ => HM.raise .keyError
  | fuel + 1, self, [k], v => do
      match v with
      | .leaf _ => put self k v                                   -- line 112
      | .ref w =>
          match ← get? self k with
          | none => put self k v                                  -- line 112: same object
          | some old => do                                        -- lines 109-110
              let es ← items w
              es.foldl (fun m e => do
                m
                match old with
                | .leaf _ => HM.raise .attributeError
                | .ref u => setKey fuel u [e.1] e.2) (HM.pure ())
  | fuel + 1, self, k :: k2 :: ks, v => do
      let fresh : HM Unit := do                                   -- lines 97-98, 101-102
        let n ← new
        put self k (.ref n)
        setKey fuel n (k2 :: ks) v
      match ← get? self k with
      | none => fresh                                             -- KeyError at line 95
      | some (.leaf none) => fresh
      | some (.leaf (some _)) => HM.raise .keyError               -- line 106
      | some (.ref d) =>
          HM.tryCatch (setKey fuel d (k2 :: ks) v) (fun e =>
            match e with
            | .keyError => fresh
            | .attributeError => HM.raise .keyError
            | e => HM.raise e)

/-- `self.get_key(key)` (attrdict.py:114-142). -/
def getKey : Addr → Path → HM HVal
  | _, [] => HM.raise .keyError
  | self, [k] => do
      match ← get? self k with
      | some v => HM.pure v
      | none => HM.raise .keyError
  | self, k :: k2 :: ks => do
      match ← get? self k with
      | none => HM.raise .keyError
      | some (.leaf _) => HM.raise .attributeError
      | some (.ref d) => getKey d (k2 :: ks)

/-- `isinstance(self.get_key(key, None), AttrDict)` (attrdict.py:251). -/
def isDictAt : Addr → Path → HM Bool
  | _, [] => HM.pure false
  | self, [k] => do
      match ← get? self k with
      | some (.ref _) => HM.pure true
      | _ => HM.pure false
  | self, k :: k2 :: ks => do
      match ← get? self k with
      | some (.ref d) => isDictAt d (k2 :: ks)
      | _ => HM.pure false

/-- `self.del_key(key)` (attrdict.py:144-158). -/
def delKey : Addr → Path → HM Unit
  | _, [] => HM.raise .keyError
  | self, [k] => do
      match ← get? self k with
      | some _ => del self k
      | none => HM.raise .keyError
  | self, k :: k2 :: ks => do
      match ← get? self k with
      | none => HM.raise .keyError
      | some (.leaf _) => HM.raise .typeError
      | some (.ref d) => do
          delKey d (k2 :: ks)
          match ← items d with
          | [] => del self k
          | _ => HM.pure ()

/-- `self.keys_nested()` (attrdict.py:187-210). -/
def keysNested : Nat → Addr → HM (List Path)
  | 0, _ => HM.stuck
  | fuel + 1, self => do
      let es ← items self
      es.foldl (fun m e => do
        let acc ← m
        match e.2 with
        | .leaf _ => HM.pure (acc ++ [[e.1]])
        | .ref d => do
            match ← items d with
            | [] => HM.pure (acc ++ [[e.1]])
            | _ => do
                let ks ← keysNested fuel d
                HM.pure (acc ++ ks.map (e.1 :: ·))) (HM.pure [])

/-- `self.union(other, allow_override, allow_replacement)` (attrdict.py:212-256). -/
def union (fuel : Nat) (self other : Addr) (allowOverride allowReplacement : Bool) : HM Unit := do
  let selfKeys ← keysNested fuel self
  let otherKeys ← keysNested fuel other
  let overrideKeys := if allowReplacement then otherKeys.filter (fun k => !Dict.hasWipe k) else otherKeys
  let wipeKeys := if allowReplacement then (otherKeys.filter Dict.hasWipe).map Dict.wipePrefix else []
  overrideKeys.foldl (fun m k => do
    m
    if !allowOverride && selfKeys.contains k then HM.raise .keyError
    else do
      let v ← getKey other k
      let isd ← isDictAt self k
      if v = .leaf none ∧ isd = true then HM.pure ()
      else setKey fuel self k v) (HM.pure ())
  wipeKeys.foldl (fun m k => do
    m
    delKey self k
    let v ← getKey other (k ++ [Dict.wipeKey])
    setKey fuel self k v) (HM.pure ())

/-- `AttrDict(d)` / `d.copy()` for a dictionary object (attrdict.py:47-79): new objects at every
level. -/
def copy : Nat → Addr → HM Addr
  | 0, _ => HM.stuck
  | fuel + 1, r => do
      let n ← new
      let es ← items r
      es.foldl (fun m e => do
        m
        match e.2 with
        | .leaf _ => put n e.1 e.2
        | .ref d => do
            let c ← copy fuel d
            put n e.1 (.ref c)) (HM.pure ())
      HM.pure n

/-- A dictionary given as a tree, e.g. read from YAML: all objects are new and distinct. -/
def ofDict : Def → HM Addr
  | .nil => new
  | .leaf k a rest => do
      let r ← ofDict rest
      fun h => some (.ok r, h.set r ((k, .leaf a) :: h.getD r []))
  | .sub k d rest => do
      let c ← ofDict d
      let r ← ofDict rest
      fun h => some (.ok r, h.set r ((k, .ref c) :: h.getD r []))

/-- The tree a dictionary object denotes. -/
def toDict : Nat → Heap → Addr → Option Def
  | 0, _, _ => none
  | fuel + 1, h, r =>
      (h.getD r []).foldr (fun e acc =>
        match acc with
        | none => none
        | some rest =>
            match e.2 with
            | .leaf a => some (.leaf e.1 a rest)
            | .ref d => match toDict fuel h d with
                | none => none
                | some t => some (.sub e.1 t rest)) (some .nil)

/-! ## `_load_scenario_overrides` -/

/-- `_load_scenario_overrides` (model_definition.py:92-130) without the `locations` rename.
`scenario` is the result of `_combine_overrides` (fresh objects, read from YAML text). -/
def loadScenarioOverrides (fuel : Nat) (modelDef overrideDict : Def) (scenario : Option Def) :
    HM Addr := do
  let m ← ofDict modelDef
  let model ← copy fuel m                                     -- line 95
  let o ← ofDict overrideDict                                 -- line 98
  union fuel model o true true                                -- lines 99-101
  del model "overrides"                                       -- lines 104-105
  del model "scenarios"
  match scenario with
  | none => HM.pure ()
  | some s => do
      let s ← ofDict s
      union fuel model s true true                            -- lines 116-118
  match ← items o with
  | [] => HM.pure ()
  | _ => do
      del o "scenarios"                                       -- lines 126-127
      del o "overrides"
      union fuel model o true true                            -- lines 128-130
  HM.pure model

/-- Run from an empty heap and read the result back as a tree. -/
def runLoad (fuel : Nat) (modelDef overrideDict : Def) (scenario : Option Def) : Option Def :=
  match loadScenarioOverrides fuel modelDef overrideDict scenario [] with
  | some (.ok r, h) => toDict fuel h r
  | _ => none

/-! ## Templates -/

/-- `_resolve_template` (model_definition.py:229-257); `raw` and `resolved` are the addresses of
`_raw_templates` and `resolved_templates`. -/
def resolveTemplate (raw resolved : Addr) : Nat → List String → Key → HM Addr
  | 0, _, _ => HM.stuck
  | fuel + 1, stack, name => do
      if name ∈ stack then HM.raise .modelError
      else do
        let result ← new                                      -- line 242
        match ← get? raw name with
        | none => HM.raise .keyError
        | some (.leaf _) => HM.raise .typeError
        | some (.ref rawData) => do
            match ← get? rawData ModelDefinition.callKey with
            | none => HM.pure ()
            | some (.leaf (some (.str n))) => do
                let inh ← (do
                  match ← get? resolved n with
                  | some (.ref r) => HM.pure r                -- line 248: the stored object
                  | some (.leaf _) => HM.raise .typeError
                  | none => resolveTemplate raw resolved fuel (name :: stack) n)
                union fuel result inh false false             -- line 251
            | some (.leaf _) => HM.raise .keyError
            | some (.ref _) => HM.raise .typeError
            -- lines 253-254: a new plain dict, so `union` copies its sub-dictionaries
            let loc ← copy fuel rawData
            del loc ModelDefinition.callKey
            union fuel result loc true false
            HM.pure result

/-- `_resolve` for the templates section (model_definition.py:220-226). -/
def resolveAll (fuel : Nat) (templates : Def) : HM Addr := do
  let raw ← ofDict templates
  let resolved ← new
  let es ← items raw
  es.foldl (fun m e => do
    m
    match e.2 with
    | .leaf _ => HM.raise .modelError
    | .ref _ => do
        let r ← resolveTemplate raw resolved fuel [] e.1
        put resolved e.1 (.ref r)) (HM.pure ())
  HM.pure resolved

/-- Run from an empty heap and read `resolved_templates` back as a tree. -/
def runTemplates (fuel : Nat) (templates : Def) : Option Def :=
  match resolveAll fuel templates [] with
  | some (.ok r, h) => toDict fuel h r
  | _ => none

end HeapModel
end Calliope
