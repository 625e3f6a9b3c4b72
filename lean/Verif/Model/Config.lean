import Verif.Model.ModelDefinition

/-!
# Model of `calliope.schemas.general`: configuration objects and their `update`

Source: `/repo/src/calliope/schemas/general.py`.

A configuration object is a tree of pydantic models.  Three kinds of inner node exist:
`CalliopeBaseModel` (a fixed set of fields), `CalliopeDictModel` (user-defined keys) and
`CalliopeListModel`.  Everything else is a plain setting.

pydantic itself is a parameter (`Pydantic`): `build t v` is validation of the raw value `v`
against the annotation `t`, which may coerce or raise.  Two simplifications:

* `updated.model_validate(updated.model_dump())` (line 174) and `model_validate(self.root | new)`
  (line 97) re-validate values that are already valid; the model takes this as the identity on
  unchanged values, and as `build` on the new ones.  Validators that look at a whole object
  (`checkAll`) may still raise.
* `self.root` and fields are association lists; `model_copy` never mutates the original
  (models are frozen, line 138), so `update` is a function.
-/

namespace Calliope
namespace Config

/-- A configuration object. `t` is the annotation a node is validated against; for a dict model,
`t` is the annotation of its entries. -/
inductive Cfg (τ : Type) where
  | leaf (t : τ) (v : Val Scalar)                       -- a plain setting
  | base (t : τ) (fields : List (String × Cfg τ))       -- `CalliopeBaseModel` (line 133)
  | dictM (t : τ) (entries : List (String × Cfg τ))     -- `CalliopeDictModel` (line 50)
  | listM (t : τ) (v : Val Scalar)                      -- `CalliopeListModel` (line 100)

/-- What pydantic contributes. -/
structure Pydantic (τ : Type) where
  /-- `model_validate` of a raw value against an annotation. -/
  build : τ → Val Scalar → Except Err (Cfg τ)
  /-- `CalliopeListModel.model_validate` (line 130): the new content of a list model. -/
  buildList : τ → Val Scalar → Except Err (Val Scalar)
  /-- Python's `==` between a stored plain setting and the new value (lines 91, 166). -/
  same : Val Scalar → Val Scalar → Bool
  /-- Whether re-validation rejects attributes outside the schema; otherwise they are dropped. -/
  strict : Bool
  /-- Whole-object validators (e.g. `unique_component_names`). -/
  checkAll : τ → List (String × Cfg τ) → Except Err Unit

variable {τ : Type}

/-- `dict.__setitem__` / `self.root | new_dict`: overwrite in place or append. -/
def setField : List (String × Cfg τ) → String → Cfg τ → List (String × Cfg τ)
  | [], k, c => [(k, c)]
  | (k', c') :: rest, k, c =>
      if k' = k then (k', c) :: rest else (k', c') :: setField rest k c

/-- `CalliopeListModel.update` (general.py:119-130): replaced as a whole. -/
def updList (P : Pydantic τ) (t : τ) (w : Val Scalar) : Except Err (Cfg τ) :=
  match P.buildList t w with
  | .error e => .error e
  | .ok v => .ok (.listM t v)

/-- `AttrDict(update_dict)` (lines 85, 160) for a value that is not a dictionary: `None` gives an
empty dictionary (attrdict.py:40), anything else raises `ValueError` (attrdict.py:44). -/
def emptyUpdate (c : Cfg τ) : Option Scalar → Except Err (Cfg τ)
  | none => .ok c
  | some _ => .error .valueError

mutual
/-- `key_class.update(val)` / plain assignment inside `CalliopeBaseModel.update`
(general.py:161-172), for a raw dictionary `d` given for field `c`. -/
def updWithDict (P : Pydantic τ) (c : Cfg τ) (d : Def) : Except Err (Cfg τ) :=
  match c with
  | .base t fs =>
      match updBase P fs fs d with
      | .error e => .error e
      | .ok fs' => match P.checkAll t fs' with
        | .error e => .error e
        | .ok _ => .ok (.base t fs')
  | .dictM t es =>
      match updDict P t es es d with
      | .error e => .error e
      | .ok es' => match P.checkAll t es' with
        | .error e => .error e
        | .ok _ => .ok (.dictM t es')
  | .listM t _ => updList P t (.dict d)
  | .leaf t v => if P.same v (.dict d) then .ok c else P.build t (.dict d)
termination_by (sizeOf d, 1)

/-- `CalliopeBaseModel.update` (general.py:157-174): the loop over the items of the update.
`self` is the object, `acc` its copy with the new values so far. -/
def updBase (P : Pydantic τ) (self acc : List (String × Cfg τ)) (u : Def) :
    Except Err (List (String × Cfg τ)) :=
  match u with
  | .nil => .ok acc
  | .leaf k a rest =>
      match self.lookup k with
      | none =>          -- `getattr(self, key, None)` is None
          if a = none then updBase P self acc rest
          else if P.strict then .error .valueError else updBase P self acc rest
      | some c =>
          let new := match c with
            | .base _ _ => emptyUpdate c a
            | .dictM _ _ => emptyUpdate c a
            | .listM t _ => updList P t (.leaf a)
            | .leaf t v => if P.same v (.leaf a) then .ok c else P.build t (.leaf a)
          match new with
          | .error e => .error e
          | .ok c' => updBase P self (setField acc k c') rest
  | .sub k d rest =>
      match self.lookup k with
      | none => if P.strict then .error .valueError else updBase P self acc rest
      | some c =>
          match updWithDict P c d with
          | .error e => .error e
          | .ok c' => updBase P self (setField acc k c') rest
termination_by (sizeOf u, 0)

/-- `CalliopeDictModel.update` (general.py:72-97); `t` is the annotation of the entries.  Unlike
in `updBase`, an entry that is itself a dict model is not updated recursively but validated
anew (lines 87-95). -/
def updDict (P : Pydantic τ) (t : τ) (self acc : List (String × Cfg τ)) (u : Def) :
    Except Err (List (String × Cfg τ)) :=
  match u with
  | .nil => .ok acc
  | .leaf k a rest =>
      match self.lookup k with
      | none =>
          if a = none then updDict P t self acc rest     -- `None == None` (line 91)
          else match P.build t (.leaf a) with
            | .error e => .error e
            | .ok c' => updDict P t self (setField acc k c') rest
      | some c =>
          let new := match c with
            | .base _ _ => emptyUpdate c a
            | .dictM _ _ => P.build t (.leaf a)
            | .listM t' _ => updList P t' (.leaf a)
            | .leaf _ v => if P.same v (.leaf a) then .ok c else P.build t (.leaf a)
          match new with
          | .error e => .error e
          | .ok c' => updDict P t self (setField acc k c') rest
  | .sub k d rest =>
      match self.lookup k with
      | none =>
          match P.build t (.dict d) with
          | .error e => .error e
          | .ok c' => updDict P t self (setField acc k c') rest
      | some c =>
          let new := match c with
            | .dictM _ _ => P.build t (.dict d)
            | .leaf _ v => if P.same v (.dict d) then .ok c else P.build t (.dict d)
            | .base t' fs => updWithDict P (.base t' fs) d
            | .listM t' v => updWithDict P (.listM t' v) d
          match new with
          | .error e => .error e
          | .ok c' => updDict P t self (setField acc k c') rest
termination_by (sizeOf u, 0)
end

/-- `config.update(update_dict)` on the object a user holds (general.py:147-174, 72-97).
`update_dict` is the nested form that `AttrDict(update_dict)` gives dotted keys. -/
def update (P : Pydantic τ) (c : Cfg τ) (u : Def) : Except Err (Cfg τ) := updWithDict P c u

/-- Items of lists validated by `_validate_unique_list` (general.py:23-30): hashable atoms or (unhashable)
lists of atoms. -/
inductive Atom where
  | str (s : String)
  | int (i : Int)
  deriving DecidableEq, Repr

inductive LItem where
  | atom (a : Atom)
  | list (l : List Atom)
  deriving DecidableEq, Repr

/-- `tuple(i)` (general.py:27): the characters of a string; a number raises `TypeError`. -/
def tupleOf : LItem → Option (List Atom)
  | .atom (.str s) => some (s.toList.map (fun c => .str (String.singleton c)))
  | .atom (.int _) => none
  | .list l => some l

/-- Size of `set(v)`. -/
def setSize {α : Type} [DecidableEq α] : List α → Nat
  | [] => 0
  | x :: xs => if x ∈ xs then setSize xs else setSize xs + 1

/-- `set(v)` works when every item is hashable (line 25). -/
def hashable : LItem → Bool
  | .atom _ => true
  | .list _ => false

def sequenceTuples : List LItem → Option (List (List Atom))
  | [] => some []
  | i :: is => match tupleOf i, sequenceTuples is with
    | some t, some ts => some (t :: ts)
    | _, _ => none

/-- `_validate_unique_list` (general.py:23-30): `ok true` accepted, `ok false` rejected with the
validation error, `error` the uncaught `TypeError` of line 27. -/
def validateUnique (v : List LItem) : Except Err Bool :=
  if v.all hashable then .ok (v.length == setSize v)
  else match sequenceTuples v with
    | none => .error .typeError
    | some ts => .ok (v.length == setSize ts)

end Config
end Calliope
