import Verif.Model.MathText

/-!
# Specification: math files, one over the other
-/

namespace Calliope
namespace Merge

open Grammar (Str)
open MathText (File Raw RawItem)

/-- The groups of components in a math file. -/
inductive Group where
  | dimensions | parameters | lookups | variables' | globalExpressions | constraints | objectives | postprocessed | checks
  deriving DecidableEq

/-- The components of a group. -/
def components (m : File) : Group → List Raw
  | .dimensions => m.dimensions
  | .parameters => m.parameters
  | .lookups => m.lookups
  | .variables' => m.vars
  | .globalExpressions => m.globals
  | .constraints => m.constraints
  | .objectives => m.objectives
  | .postprocessed => m.postprocessed
  | .checks => m.checks

/-- The entry of a name in `sub_expressions` or `slices`. -/
def entry (k : Str) : List (Str × List RawItem) → Option (List RawItem)
  | [] => none
  | (k', v) :: r => if k' = k then some v else entry k r

/-- What a component consists of. -/
inductive Field : {α : Type} → (Raw → Option α) → Prop
  | active : Field Raw.active
  | foreach : Field Raw.foreach
  | cond : Field Raw.cond
  | equations : Field Raw.equations
  | lower : Field Raw.lower
  | upper : Field Raw.upper
  | domain : Field Raw.domain
  | order : Field Raw.order
  | sense : Field Raw.sense
  | message : Field Raw.message
  | errors : Field Raw.errors
  | sub (k : Str) : Field (fun r => entry k r.subs)
  | slice (k : Str) : Field (fun r => entry k r.slices)

/-- Keys are different, as in every dictionary. -/
structure Proper (m : File) : Prop where
  names : ∀ g, ((components m g).map Raw.name).Nodup
  subs : ∀ g, ∀ r ∈ components m g, (r.subs.map Prod.fst).Nodup
  slices : ∀ g, ∀ r ∈ components m g, (r.slices.map Prod.fst).Nodup

/-- The file gives this to the component. -/
def Gives {α : Type} (F : File) (g : Group) (n : Str) (f : Raw → Option α) (v : α) : Prop :=
  ∃ r ∈ components F g, r.name = n ∧ f r = some v

/-- The last file that gives something to the component gives this. -/
def Last {α : Type} (fs : List File) (g : Group) (n : Str) (f : Raw → Option α) (v : α) : Prop :=
  ∃ before F after, fs = before ++ F :: after ∧ Gives F g n f v ∧ ∀ G ∈ after, ∀ w, ¬ Gives G g n f w

/-- Names, each where it is first. -/
def firsts : List Str → List Str
  | [] => []
  | n :: l => n :: (firsts l).filter (fun k => k ≠ n)

/-- Components are active if nothing else is said. -/
def Active (r : Raw) : Prop := r.active ≠ some false

/-- The active components of a list, by their `order`, and those of the same order as they were. -/
def Arranged (l out : List Raw) : Prop :=
  out.Pairwise (fun a b => a.position ≤ b.position) ∧
  ∀ k : Int, out.filter (fun r => r.position = k) = l.filter (fun r => r.position = k ∧ r.active ≠ some false)

/-- They are read, one by one. -/
def ReadBy {α : Type} (read : Raw → Option α) (l : List Raw) (xs : List α) : Prop :=
  ∃ out, Arranged l out ∧ List.Forall₂ (fun r x => read r = some x) out xs

end Merge
end Calliope
