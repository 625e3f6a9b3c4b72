import Verif.Model.Runs

/-!
# Model of the names of solver objects

Source: `/repo/src/calliope/backend/pyomo_backend_model.py:393-425,730-843`,
`/repo/src/calliope/backend/gurobi_backend_model.py:252-309`,
`/repo/src/calliope/backend/backend_model.py:705-738,1221-1281,1464-1477,1519-1534`.

A component is an array of solver objects; here it is the list of its objects with their coordinates.

Simplifications: coordinates are texts, whole numbers or times (in seconds).  How a time is printed to the minute and
read back, and how `re.sub` reads a replacement text, are parameters (`Printing`).  A digit is one of `0` to `9`.  What
evaluating a definition gives is a parameter of each call: the coordinates of the objects that are created.  Calls that
raise because of a name that is there already change nothing.
-/

namespace Calliope
namespace Names

open Runs (Str str join)

/-- A coordinate of an array. -/
inductive Coord where
  | text (s : Str)
  | whole (n : Nat)
  | time (seconds : Int)
  deriving DecidableEq, Repr

/-- The functions of Python, numpy and pandas that are used. -/
structure Printing where
  /-- `strftime("%Y-%m-%d %H:%M")` of a minute -/
  stamp : Int → Str
  /-- `astype("datetime64[ns]")` of such a text, in seconds -/
  parse : Str → Int
  /-- what `re.sub` inserts for a replacement text, which may have escapes -/
  expand : Str → Except Err Str

/-- A coordinate while `_datetime_as_string` is in force (backend_model.py:1525-1529). -/
def printed (W : Printing) : Coord → Coord
  | .time t => .text (W.stamp (t / 60))
  | c => c

/-- A coordinate after it (backend_model.py:1532-1534). -/
def restored (W : Printing) : Coord → Coord
  | .time t => .time (W.parse (W.stamp (t / 60)))
  | c => c

/-- `str(i)` of a printed coordinate. -/
def shown (W : Printing) (c : Coord) : Str :=
  match printed W c with
  | .text s => s
  | .whole n => str n
  | .time _ => []

/-- `[a, b]` -/
def bracketed (ls : List Str) : Str := '[' :: (join ", ".toList ls ++ [']'])

/-! ### Pyomo -/

/-- An object: its place in the list of the component, its coordinates in the array, and `_calliope_coords`. -/
structure Item where
  pos : Nat
  coords : List Coord
  named : Option (List Str)
  deriving DecidableEq, Repr

/-- A component: `attrs["obj_type"]`, its objects and `attrs["coords_in_name"]`. -/
structure Comp where
  group : Str
  items : List Item
  flag : Bool
  deriving DecidableEq, Repr

/-- The name that Pyomo gives to an object in a list in a dictionary. -/
def containerName (g n : Str) (pos : Nat) : Str :=
  g ++ '[' :: (n ++ ']' :: '[' :: (str pos ++ [']']))

/-- Where `\d+\]` ends, after some digit (`seen`) or at the start. -/
def digitsThenClose : Bool → Str → Option Nat
  | _, [] => none
  | seen, c :: r =>
    if c.isDigit then (digitsThenClose true r).map (· + 1)
    else if seen && c == ']' then some 1
    else none

/-- Where `\[\d+\]` ends after its first character, if it matches at the start. -/
def indexAt : Str → Option Nat
  | [] => none
  | c :: r => if c = '[' then digitsThenClose false r else none

/-- `re.sub(r"\[\d+\]", new, s)` (pyomo_backend_model.py:753), after skipping some characters. -/
def subIndex (new : Str) : Nat → Str → Str
  | _, [] => []
  | k + 1, _ :: r => subIndex new k r
  | 0, c :: r =>
    match indexAt (c :: r) with
    | some k => new ++ subIndex new k r
    | none => c :: subIndex new 0 r

/-- `getname` with `_update_name` (pyomo_backend_model.py:735-753,778-780). -/
def Item.name (W : Printing) (g n : Str) (i : Item) : Except Err Str :=
  match i.named with
  | none => .ok (containerName g n i.pos)
  | some [] => .ok (subIndex [] 0 (containerName g n i.pos))
  | some (l :: ls) =>
    match W.expand (bracketed (l :: ls)) with
    | .error e => .error e
    | .ok new => .ok (subIndex new 0 (containerName g n i.pos))

/-- The backend: `_dataset` and `_has_verbose_strings`. -/
structure State where
  comps : List (Str × Comp)
  verbose : Bool
  deriving DecidableEq, Repr

def State.empty : State := ⟨[], false⟩

/-- New objects: they are appended to the list of the component one after the other. -/
def newItems : Nat → List (List Coord) → List Item
  | _, [] => []
  | k, c :: cs => ⟨k, c, none⟩ :: newItems (k + 1) cs

/-- What is added: the name, the group and the coordinates of the objects. -/
structure Made where
  name : Str
  group : Str
  coords : List (List Coord)
  deriving DecidableEq, Repr

/-- `add_<group>` and `_add_to_dataset` (backend_model.py:728-733). -/
def State.add (s : State) (m : Made) : State :=
  if (s.comps.map Prod.fst).contains m.name then s
  else { s with comps := s.comps ++ [(m.name, ⟨m.group, newItems 0 m.coords, false⟩)] }

/-- `delete_component` (pyomo_backend_model.py:417-425). -/
def State.delete (s : State) (n g : Str) : State :=
  { s with comps := s.comps.filter (fun x => !(x.1 == n && x.2.group == g)) }

/-- The components whose objects are renamed (pyomo_backend_model.py:399-404). -/
def renamedGroups : List Str :=
  ["parameters".toList, "variables".toList, "constraints".toList, "piecewise_constraints".toList]

/-- `__renamer` for all objects of a component (pyomo_backend_model.py:394-396,405-411). -/
def rename (W : Printing) (c : Comp) : Comp :=
  if renamedGroups.contains c.group && !c.flag then
    { c with items := c.items.map (fun i => { i with named := some (i.coords.map (shown W)) }), flag := true }
  else c

/-- The coordinates of a component after `_datetime_as_string`. -/
def recoord (W : Printing) (c : Comp) : Comp :=
  { c with items := c.items.map (fun i => { i with coords := i.coords.map (restored W) }) }

/-- `verbose_strings` (pyomo_backend_model.py:393-412). -/
def State.verboseStrings (W : Printing) (s : State) : State :=
  ⟨s.comps.map (fun x => (x.1, recoord W (rename W x.2))), true⟩

/-- `_update_input` that builds components again (backend_model.py:1259-1278,1464-1477). -/
def State.rebuild (W : Printing) (s : State) (made : List Made) : State :=
  if s.verbose then (made.foldl (fun s m => (s.delete m.name m.group).add m) s).verboseStrings W
  else made.foldl (fun s m => (s.delete m.name m.group).add m) s

/-- The calls a user can make.  `update none` is an update of values in place. -/
inductive Call where
  | add (m : Made)
  | delete (n g : Str)
  | verbose
  | update (made : Option (List Made))

def State.step (W : Printing) (s : State) : Call → State
  | .add m => s.add m
  | .delete n g => s.delete n g
  | .verbose => s.verboseStrings W
  | .update none => s
  | .update (some made) => s.rebuild W made

def State.run (W : Printing) (s : State) : List Call → State
  | [] => s
  | c :: cs => (s.step W c).run W cs

/-! ### Gurobi -/

/-- An object: its coordinates in the array and the name it was given. -/
structure GItem where
  coords : List Coord
  name : Option Str
  deriving DecidableEq, Repr

structure GComp where
  group : Str
  items : List GItem
  flag : Bool
  deriving DecidableEq, Repr

/-- `', '.join(idx)` (gurobi_backend_model.py:255): a `TypeError` if some coordinate is no text. -/
def texts (W : Printing) : List Coord → Except Err (List Str)
  | [] => .ok []
  | c :: cs =>
    match printed W c with
    | .text s =>
      match texts W cs with
      | .error e => .error e
      | .ok ls => .ok (s :: ls)
    | _ => .error .typeError

/-- `__renamer` (gurobi_backend_model.py:253-256) for one object after the other, as far as it gets. -/
def gRenameItems (W : Printing) (n : Str) : List GItem → List GItem × Except Err Unit
  | [] => ([], .ok ())
  | i :: is =>
    match texts W i.coords with
    | .error e => (i :: is, .error e)
    | .ok ls => (⟨i.coords, some (n ++ bracketed ls)⟩ :: (gRenameItems W n is).1, (gRenameItems W n is).2)

/-- The components whose objects are renamed (gurobi_backend_model.py:259-263). -/
def gRenamedGroups : List Str := ["variables".toList, "constraints".toList, "piecewise_constraints".toList]

/-- One component (gurobi_backend_model.py:266-277). -/
def gRename (W : Printing) (n : Str) (c : GComp) : GComp × Except Err Unit :=
  if gRenamedGroups.contains c.group && !c.flag then
    match gRenameItems W n c.items with
    | (is, .ok ()) => (⟨c.group, is, true⟩, .ok ())
    | (is, .error e) => ({ c with items := is }, .error e)
  else (c, .ok ())

/-- One component after the other. -/
def gRenameAll (W : Printing) : List (Str × GComp) → List (Str × GComp) × Except Err Unit
  | [] => ([], .ok ())
  | (n, c) :: cs =>
    match gRename W n c with
    | (c', .error e) => ((n, c') :: cs, .error e)
    | (c', .ok ()) => ((n, c') :: (gRenameAll W cs).1, (gRenameAll W cs).2)

/-- The coordinates of a component after `_datetime_as_string`. -/
def gRecoord (W : Printing) (c : GComp) : GComp :=
  { c with items := c.items.map (fun i => { i with coords := i.coords.map (restored W) }) }

/-- `verbose_strings` (gurobi_backend_model.py:252-278): the components after it, and whether it raised.
`_has_verbose_strings` is not set. -/
def gVerboseStrings (W : Printing) (s : List (Str × GComp)) : List (Str × GComp) × Except Err Unit :=
  ((gRenameAll W s).1.map (fun x => (x.1, gRecoord W x.2)), (gRenameAll W s).2)

def gAdd (s : List (Str × GComp)) (m : Made) : List (Str × GComp) :=
  if (s.map Prod.fst).contains m.name then s
  else s ++ [(m.name, ⟨m.group, m.coords.map (fun c => ⟨c, none⟩), false⟩)]

/-- `delete_component` (gurobi_backend_model.py:287-303). -/
def gDelete (s : List (Str × GComp)) (n g : Str) : List (Str × GComp) :=
  s.filter (fun x => !(x.1 == n && x.2.group == g))

/-- `update_input` (gurobi_backend_model.py:305-309, backend_model.py:1259-1278): components are always built again. -/
def gUpdate (s : List (Str × GComp)) (made : List Made) : List (Str × GComp) :=
  made.foldl (fun s m => gAdd (gDelete s m.name m.group) m) s

end Names
end Calliope
