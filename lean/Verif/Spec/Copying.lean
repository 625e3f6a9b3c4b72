import Verif.Model.Copying

/-!
# What a dictionary holds, and what can be done with one

`Holds h v t`: in the heap `h` the value `v` is the data `t`.  `Made h v t`: besides, all dictionaries in it are `AttrDict`
objects and no list holds a list, as in what the package makes of YAML.

`Client n h K`: what someone who has only the object at `n` can make of the heap: `K` are the objects they know.  They can
look into objects they know, make new ones of what they know, and change objects they know in any way.
-/

namespace Calliope
namespace Copying

variable {S : Type}

mutual
/-- Data: dictionaries, lists and other values. -/
inductive Tree (S : Type) where
  | leaf (s : S)
  | dict (f : Fields S)
  | list (i : Items S)
inductive Fields (S : Type) where
  | nil
  | cons (k : String) (t : Tree S) (r : Fields S)
inductive Items (S : Type) where
  | nil
  | cons (t : Tree S) (r : Items S)
end

mutual
inductive Holds (h : Heap S) : Value S → Tree S → Prop
  | leaf (s : S) : Holds h (.leaf s) (.leaf s)
  | dict {r : Addr} {attr : Bool} {es : List (String × Value S)} {f : Fields S} : h[r]? = some (.dict attr es) →
      HoldsFields h es f → Holds h (.ref r) (.dict f)
  | list {r : Addr} {xs : List (Value S)} {i : Items S} : h[r]? = some (.list xs) →
      HoldsItems h xs i → Holds h (.ref r) (.list i)
inductive HoldsFields (h : Heap S) : List (String × Value S) → Fields S → Prop
  | nil : HoldsFields h [] .nil
  | cons {k : String} {v : Value S} {t : Tree S} {es : List (String × Value S)} {f : Fields S} : Holds h v t →
      HoldsFields h es f → HoldsFields h ((k, v) :: es) (.cons k t f)
inductive HoldsItems (h : Heap S) : List (Value S) → Items S → Prop
  | nil : HoldsItems h [] .nil
  | cons {v : Value S} {t : Tree S} {xs : List (Value S)} {i : Items S} : Holds h v t →
      HoldsItems h xs i → HoldsItems h (v :: xs) (.cons t i)
end

mutual
inductive Made (h : Heap S) : Value S → Tree S → Prop
  | leaf (s : S) : Made h (.leaf s) (.leaf s)
  | dict {r : Addr} {es : List (String × Value S)} {f : Fields S} : h[r]? = some (.dict true es) →
      MadeFields h es f → Made h (.ref r) (.dict f)
  | list {r : Addr} {xs : List (Value S)} {i : Items S} : h[r]? = some (.list xs) →
      MadeItems h xs i → Made h (.ref r) (.list i)
inductive MadeFields (h : Heap S) : List (String × Value S) → Fields S → Prop
  | nil : MadeFields h [] .nil
  | cons {k : String} {v : Value S} {t : Tree S} {es : List (String × Value S)} {f : Fields S} : Made h v t →
      MadeFields h es f → MadeFields h ((k, v) :: es) (.cons k t f)
inductive MadeItems (h : Heap S) : List (Value S) → Items S → Prop
  | nil : MadeItems h [] .nil
  | leaf {s : S} {xs : List (Value S)} {i : Items S} : MadeItems h xs i →
      MadeItems h (.leaf s :: xs) (.cons (.leaf s) i)
  | dict {r : Addr} {f : Fields S} {xs : List (Value S)} {i : Items S} : Made h (.ref r) (.dict f) →
      MadeItems h xs i → MadeItems h (.ref r :: xs) (.cons (.dict f) i)
end

/-- The objects that an object refers to. -/
def Obj.Refers : Obj S → Addr → Prop
  | .dict _ es, d => ∃ k, (k, Value.ref d) ∈ es
  | .list xs, d => Value.ref d ∈ xs

inductive Client (n : Addr) (h0 : Heap S) : Heap S → List Addr → Prop
  | start : Client n h0 h0 [n]
  | look {h : Heap S} {K : List Addr} {a d : Addr} {o : Obj S} : Client n h0 h K → a ∈ K → h[a]? = some o →
      o.Refers d → Client n h0 h (d :: K)
  | make {h : Heap S} {K : List Addr} (o : Obj S) : Client n h0 h K → (∀ d, o.Refers d → d ∈ K) →
      Client n h0 (h ++ [o]) (h.length :: K)
  | change {h : Heap S} {K : List Addr} {a : Addr} (o : Obj S) : Client n h0 h K → a ∈ K →
      (∀ d, o.Refers d → d ∈ K) → Client n h0 (h.set a o) K

mutual
/-- How deep dictionaries are nested. -/
def Tree.depth : Tree S → Nat
  | .leaf _ => 0
  | .dict f => f.depth + 1
  | .list i => i.depth
def Fields.depth : Fields S → Nat
  | .nil => 0
  | .cons _ t r => max t.depth r.depth
def Items.depth : Items S → Nat
  | .nil => 0
  | .cons t r => max t.depth r.depth
end

mutual
/-- No list holds a list. -/
def Tree.Simple : Tree S → Prop
  | .leaf _ => True
  | .dict f => f.Simple
  | .list i => i.Simple
def Fields.Simple : Fields S → Prop
  | .nil => True
  | .cons _ t r => t.Simple ∧ r.Simple
def Items.Simple : Items S → Prop
  | .nil => True
  | .cons t r => (∀ i, t ≠ .list i) ∧ t.Simple ∧ r.Simple
end

end Copying
end Calliope
