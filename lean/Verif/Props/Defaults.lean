import Verif.Model.Defaults
import Verif.Props.Clean
import Verif.Spec.Where

/-!
# C88: defaults

An item for which an input is left out has the default of the input, whatever is given for other items.  This holds for
inputs that are not Boolean and for Boolean inputs that are given nowhere.  A Boolean input that is given for one item is
false for all items that leave it out, so that `cyclic_storage`, which is on by default, is off for them.
-/

namespace Calliope
namespace Clean

open Grid ModelData

variable {T : Types Rat} {ds ds' : DS Rat} {p : String} {ρ : String → Label} (d : Where.InputDef)

theorem clean_none (h : cleanUndefined T ds = .ok ds') (hn : (ds.vars.map Prod.fst).Nodup)
    (hp : p ≠ "definition_matrix") (hv : ds.vars.lookup p = none) : ds'.vars.lookup p = none := by
  cases hl : ds'.vars.lookup p with
  | none => rfl
  | some a =>
    obtain ⟨⟨b, hb⟩, _⟩ := (C56_inputs h hn hp).1 ⟨a, hl⟩
    rw [hv] at hb; cases hb

/-- An input that is given for no item has its default everywhere. -/
theorem C88_absent (h : cleanUndefined T ds = .ok ds') (hn : (ds.vars.map Prod.fst).Nodup)
    (hp : p ≠ "definition_matrix") (hv : ds.vars.lookup p = none) (ρ : String → Label) :
    Where.valueOf (inputOf d ds' p) ρ = d.default := by
  unfold inputOf
  rw [clean_none h hn hp hv]
  cases hl : d.lookup <;> simp [Where.addInput, Where.valueOf, hl]

/-- C88, where it holds: an item for which an input that is not Boolean is left out has its default, whatever is given
for other items.  Missing: Boolean inputs, for which it is false (`C88_false_beside`). -/
theorem C88_default_partial (h : cleanUndefined T ds = .ok ds') (hn : (ds.vars.map Prod.fst).Nodup)
    (hp : p ≠ "definition_matrix") (hb : T.isBool p = false) (hi : Inside ds'.coords ds p ρ)
    (hv : valueOf ds p ρ = none) : Where.valueOf (inputOf d ds' p) ρ = d.default := by
  cases hl : ds'.vars.lookup p with
  | none =>
    unfold inputOf
    rw [hl]
    cases hl : d.lookup <;> simp [Where.addInput, Where.valueOf, hl]
  | some a =>
    have hx := ((C56_inputs h hn hp).1 ⟨a, hl⟩).1
    have hval := C56_values h hn hp hx hi
    have hnone : valueOf ds' p ρ = none := by
      rw [hval, hv]
      simp [typed, hb]
    have ha : a.at ρ = none := by
      unfold valueOf at hnone
      rw [hl] at hnone
      exact hnone
    unfold inputOf
    rw [hl]
    simp [Where.addInput, Where.valueOf, at_map, ha, toVal]

/-- A value that is given for an item of the model is its value. -/
theorem C88_given (h : cleanUndefined T ds = .ok ds') (hn : (ds.vars.map Prod.fst).Nodup)
    (hp : p ≠ "definition_matrix") (hb : T.isBool p = false) {σ : String → Label} (hc : Combination T ds σ)
    (hi : Inside ds.coords ds p σ) {v : ModelData.Scalar Rat} (hv : valueOf ds p σ = some v) :
    Where.valueOf (inputOf d ds' p) σ = toVal (some v) := by
  have hx : ∃ a, ds.vars.lookup p = some a := by
    unfold valueOf at hv
    cases hl : ds.vars.lookup p with
    | none => rw [hl] at hv; cases hv
    | some a => exact ⟨a, rfl⟩
  have hval := (C56_kept h hn hc).2.1 p hp hx hi
  rw [hv] at hval
  simp only [typed, hb, Bool.false_eq_true, if_false] at hval
  unfold valueOf at hval
  cases hl : ds'.vars.lookup p with
  | none => rw [hl] at hval; cases hval
  | some a =>
    rw [hl] at hval
    unfold inputOf
    rw [hl]
    have ha : a.at σ = some v := hval
    cases v <;> simp [Where.addInput, Where.valueOf, at_map, ha, toVal]

/-- C88 is false of Boolean inputs: where a Boolean input is given for any item, every item that leaves it out has false,
whatever the default. -/
theorem C88_false_beside (h : cleanUndefined T ds = .ok ds') (hn : (ds.vars.map Prod.fst).Nodup)
    (hp : p ≠ "definition_matrix") (hb : T.isBool p = true) (hx : ∃ a, ds.vars.lookup p = some a)
    (hi : Inside ds'.coords ds p ρ) (hv : valueOf ds p ρ = none) :
    Where.valueOf (inputOf d ds' p) ρ = .bool false := by
  have hval := C56_values h hn hp hx hi
  have hfalse : valueOf ds' p ρ = some (.bool false) := by
    rw [hval, hv]
    simp [typed, hb, truth_none]
  unfold valueOf at hfalse
  cases hl : ds'.vars.lookup p with
  | none => rw [hl] at hfalse; cases hfalse
  | some a =>
    rw [hl] at hfalse
    unfold inputOf
    rw [hl]
    have ha : a.at ρ = some (.bool false) := hfalse
    simp [Where.addInput, Where.valueOf, at_map, ha, toVal]

namespace DefaultsDemo

/-- Three batteries at one node; `cyclic` is what they say about cyclic storage. -/
def batteries (cyclic : List (String × Arr (Option (ModelData.Scalar Rat)))) : DS Rat :=
  ⟨[("nodes", "a"), ("techs", "x"), ("techs", "y"), ("techs", "z"), ("carriers", "power")],
   [("carrier_in", ⟨["nodes", "techs", "carriers"], fun _ => some (.bool true)⟩),
    ("carrier_out", ⟨["nodes", "techs", "carriers"], fun _ => some (.bool true)⟩),
    ("flow_cap_max", ⟨["techs"], fun c => if c = ["x"] then some (.num 5) else none⟩)] ++ cyclic⟩

def types : Types Rat := ⟨fun p => p ∈ ["carrier_in", "carrier_out", "cyclic_storage"], fun v => v ≠ 0⟩

/-- Only `x` says something: its storage is not cyclic. -/
def said : DS Rat := batteries [("cyclic_storage", ⟨["techs"], fun c => if c = ["x"] then some (.bool false) else none⟩)]

def cleaned (ds : DS Rat) : DS Rat :=
  match cleanUndefined types ds with
  | .ok d => d
  | .error _ => ds

theorem cleaned_ok {ds : DS Rat} (h : (∃ a, ds.vars.lookup "carrier_in" = some a) ∧
    ∃ b, ds.vars.lookup "carrier_out" = some b) : cleanUndefined types ds = .ok (cleaned ds) := by
  obtain ⟨ds', hd⟩ := (C56_runs types ds).2 h
  unfold cleaned
  rw [hd]

def at' (t : String) : String → Label := fun d => if d = "nodes" then "a" else if d = "techs" then t else "power"

/-- As in the math: on by default. -/
def cyclicDef : Where.InputDef := ⟨true, .boolean, .bool true⟩

/-- `y` has cyclic storage if none of the batteries says anything, and loses it when `x` says that it has none. -/
theorem C88_lost : Where.valueOf (inputOf cyclicDef (cleaned (batteries [])) "cyclic_storage") (at' "y") = .bool true ∧
    Where.valueOf (inputOf cyclicDef (cleaned said) "cyclic_storage") (at' "y") = .bool false := by
  refine ⟨C88_absent _ (cleaned_ok ⟨⟨_, rfl⟩, ⟨_, rfl⟩⟩) (by decide) (by decide) rfl _, ?_⟩
  refine C88_false_beside _ (cleaned_ok ⟨⟨_, rfl⟩, ⟨_, rfl⟩⟩) (by decide) (by decide) (by decide) ⟨_, rfl⟩ ?_
    (by decide +kernel)
  rintro d ⟨a, ha, hd⟩
  cases ha
  simp only [List.mem_singleton] at hd
  subst hd
  decide +kernel

/-- `C88_default_partial` and `C88_given`. -/
example : Where.valueOf (inputOf ⟨false, .number, .num 7⟩ (cleaned said) "flow_cap_max") (at' "y") = .num 7 ∧
    Where.valueOf (inputOf ⟨false, .number, .num 7⟩ (cleaned said) "flow_cap_max") (at' "x") = .num 5 := by
  refine ⟨C88_default_partial _ (cleaned_ok ⟨⟨_, rfl⟩, ⟨_, rfl⟩⟩) (by decide) (by decide) (by decide) ?_
    (by decide +kernel), ?_⟩
  · rintro d ⟨a, ha, hd⟩
    cases ha
    simp only [List.mem_singleton] at hd
    subst hd
    decide +kernel
  · refine C88_given _ (cleaned_ok ⟨⟨_, rfl⟩, ⟨_, rfl⟩⟩) (by decide) (by decide) (by decide) ?_ ?_
      (v := .num 5) (by decide +kernel)
    · refine ⟨?_, .inl (by simp [said, batteries, valueOf, truth, Arr.at])⟩
      rintro d (⟨a, ha, hd⟩ | ⟨a, ha, hd⟩) <;> cases ha <;>
      · simp only [List.mem_cons, List.not_mem_nil, or_false] at hd
        rcases hd with rfl | rfl | rfl <;> decide +kernel
    · rintro d ⟨a, ha, hd⟩
      cases ha
      simp only [List.mem_singleton] at hd
      subst hd
      decide +kernel

end DefaultsDemo

end Clean
end Calliope
