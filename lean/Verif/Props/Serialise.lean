import Verif.Proofs.Serialise

/-!
# Properties C21 and C22: attributes in files and in memory
-/

namespace Calliope
namespace Serialise

theorem names_id (l : List String) : (listify (names l)).map asName = l := by
  simp only [names, listify, List.map_map]
  conv => rhs; rw [← List.map_id l]
  rfl

theorem names_store (l : List String) : (listify (store (names l))).map asName = l := by
  match l with
  | [] => rfl
  | [s] => rfl
  | s :: t :: r =>
    have : store (names (s :: t :: r)) = names (s :: t :: r) := rfl
    rw [this]; exact names_id _

theorem storeAll_append (a b : Attrs) : storeAll (a ++ b) = storeAll a ++ storeAll b := by
  simp [storeAll]

theorem storeAll_mapVals (f : AVal → AVal) (a : Attrs) :
    storeAll (mapVals f a) = mapVals (fun v => store (f v)) a := by
  simp [storeAll, mapVals, Function.comp_def]

/-- C21 (one attribute dictionary): what was written comes back, value for value.  Missing:
attributes that are empty lists, see `C21_empty_list_fails`. -/
theorem C21_attrs_partial (Y : Yaml) (a : Attrs) (h : Proper a) (hs : ∀ e ∈ a, Saveable Y e.2)
    (hne : NoEmptyList a) :
    ∃ a', serialise Y a = (a', true) ∧ deserialise Y (storeAll a') = .ok a := by
  obtain ⟨singles, he, hn, hsub, hm⟩ := serialise_eq Y a h hs
  refine ⟨_, he, ?_⟩
  rw [storeAll_append, storeAll_mapVals]
  refine deserialise_eq Y a h hs store names_store (fun _ => rfl) (fun _ => rfl) ?_ ?_
    (fun _ => rfl) rfl singles hn hsub hm
  · intro l hl
    match l with
    | [] => simp [isSingleSet, store, toSet]
    | [e] => obtain ⟨s, rfl⟩ := hl e (by simp); simp [isSingleSet, store, listify]
    | e :: f :: r => simp [isSingleSet, store, toSet]
  · intro e he' l hl
    have hsv := hs e he'
    rw [hl] at hsv
    match l with
    | [] => exact absurd hl (hne e he')
    | [x] => obtain ⟨s, rfl⟩ := hsv x (by simp); simp [isSingle, store, listify]
    | x :: y :: r => simp [isSingle, store]

theorem memory_restored (Y : Yaml) (a : Attrs) (h : Proper a) (hs : ∀ e ∈ a, Saveable Y e.2) :
    ∃ a', serialise Y a = (a', true) ∧ deserialise Y a' = .ok a := by
  obtain ⟨singles, he, hn, hsub, hm⟩ := serialise_eq Y a h hs
  refine ⟨_, he, ?_⟩
  have := deserialise_eq Y a h hs (fun v => v) names_id (fun _ => rfl) (fun _ => rfl) ?_ ?_
    (fun _ => rfl) rfl singles hn hsub hm
  · simpa using this
  · intro l hl; simp [listify, toSet]
  · intro e _ l _; simp [listify]

theorem serialiseAll_ok (Y : Yaml) (vs : List (String × Attrs))
    (h : ∀ v ∈ vs, Proper v.2 ∧ ∀ e ∈ v.2, Saveable Y e.2) :
    ∃ vs', serialiseAll Y vs = (vs', true) ∧ deserialiseAll Y vs' = .ok vs ∧
      ((∀ v ∈ vs, NoEmptyList v.2) →
        deserialiseAll Y (vs'.map (fun v => (v.1, storeAll v.2))) = .ok vs) := by
  induction vs with
  | nil => exact ⟨[], rfl, rfl, fun _ => rfl⟩
  | cons v vs ih =>
    obtain ⟨n, a⟩ := v
    obtain ⟨vs', h1, h2, h3⟩ := ih (fun v hv => h v (by simp [hv]))
    obtain ⟨hp, hs⟩ := h (n, a) (by simp)
    obtain ⟨a', e1, e2⟩ := memory_restored Y a hp hs
    refine ⟨(n, a') :: vs', ?_, ?_, ?_⟩
    · simp only [serialiseAll, e1, h1]
    · simp only [deserialiseAll, e2, h2]
    · intro hne
      obtain ⟨a'', f1, f2⟩ := C21_attrs_partial Y a hp hs (hne (n, a) (by simp))
      rw [e1] at f1; cases f1
      simp only [List.map_cons, deserialiseAll, f2, h3 (fun v hv => hne v (by simp [hv]))]

/-- C21: a dataset saved and loaded has the same attributes on the dataset and on every data
variable.  Missing: coordinates (`C21_coordinates_fail`), empty lists (`C21_empty_list_fails`)
and dictionaries with an `import` entry (`C21_import_entry_fails`). -/
theorem C21_round_trip_partial (Y : Yaml) (ds : Dataset) (hg : ds.Good Y)
    (hne : NoEmptyList ds.attrs ∧ ∀ v ∈ ds.vars, NoEmptyList v.2) :
    ∃ mem file back, save Y false ds [] = (mem, some file, .returned) ∧ load Y file = .ok back ∧
      back.attrs = ds.attrs ∧ back.vars = ds.vars := by
  obtain ⟨a', e1, e2⟩ := C21_attrs_partial Y ds.attrs hg.1.1 hg.1.2 hne.1
  obtain ⟨vs', v1, v2, v3⟩ := serialiseAll_ok Y ds.vars hg.2.1
  obtain ⟨cs', c1, c2, c3⟩ := serialiseAll_ok Y ds.coords hg.2.2
  refine ⟨⟨ds.attrs, ds.vars, ds.coords⟩, ⟨a', vs', cs'⟩,
    ⟨ds.attrs, ds.vars, cs'.map (fun v => (v.1, storeAll v.2))⟩, ?_, ?_, rfl, rfl⟩
  · simp [save, e1, v1, v2, c1, c2]
  · simp only [load, e2, v3 hne.2]

/-- C22: when every attribute can be saved, the dataset in memory is what it was before the call,
whether writing the file succeeds or raises, also when extra attributes are passed for the file. -/
theorem C22_memory_unchanged_partial (Y : Yaml) (ds : Dataset) (hg : ds.Good Y) (kwargs : Attrs)
    (hk : Proper (kwargs.foldl (fun a e => put a e.1 e.2) ds.attrs) ∧
      ∀ e ∈ kwargs.foldl (fun a e => put a e.1 e.2) ds.attrs, Saveable Y e.2) (fails : Bool) :
    (save Y fails ds kwargs).1 = ds ∧
      (save Y fails ds kwargs).2.2 = (if fails then Outcome.raised else .returned) := by
  obtain ⟨a', e1, e2⟩ := memory_restored Y _ hk.1 hk.2
  obtain ⟨vs', v1, v2, v3⟩ := serialiseAll_ok Y ds.vars hg.2.1
  obtain ⟨cs', c1, c2, c3⟩ := serialiseAll_ok Y ds.coords hg.2.2
  simp [save, e1, v1, v2, c1, c2]

/-! ### Concrete data -/

/-- A YAML codec that knows one dictionary. -/
def toyYaml : Yaml where
  dump d := if d = .leaf "import" (some (.list ["f.yaml"])) .nil then "import: [f.yaml]" else "x: 1"
  load s := if s = "x: 1" then .ok (.leaf "x" (some (.int 1)) .nil)
    else .ok (.leaf "import" (some (.list ["f.yaml"])) .nil)

def toyDataset : Dataset where
  attrs := [("flag", .bool true), ("nothing", .none), ("d", .dict (.leaf "x" (some (.int 1)) .nil)),
    ("one", .list [.str "a"]), ("s1", .set [.str "q"]), ("s0", .set []), ("name", .str "None")]
  vars := [("cap", [("tags", .set [.str "a", .str "b"]), ("on", .bool false)])]
  coords := [("techs", [("on", .bool true)])]

example : toyDataset.Good toyYaml ∧ NoEmptyList toyDataset.attrs ∧
    ∀ v ∈ toyDataset.vars, NoEmptyList v.2 := by
  refine ⟨⟨⟨⟨by decide, by decide⟩, ?_⟩, ?_, ?_⟩, ?_, ?_⟩
  · intro e he
    simp only [toyDataset, List.mem_cons, List.not_mem_nil, or_false] at he
    rcases he with rfl | rfl | rfl | rfl | rfl | rfl | rfl <;> simp only [Saveable]
    · exact ⟨by decide, by decide⟩
    · intro e he; simp at he; exact ⟨_, he⟩
    · intro e he; simp at he; exact ⟨_, he⟩
    · intro e he; simp at he
  · intro v hv
    simp only [toyDataset, List.mem_cons, List.not_mem_nil, or_false] at hv
    subst hv
    refine ⟨⟨by decide, by decide⟩, ?_⟩
    intro e he
    simp only [List.mem_cons, List.not_mem_nil, or_false] at he
    rcases he with rfl | rfl <;> simp only [Saveable]
    intro e he; simp at he; rcases he with rfl | rfl <;> exact ⟨_, rfl⟩
  · intro v hv
    simp only [toyDataset, List.mem_cons, List.not_mem_nil, or_false] at hv
    subst hv
    refine ⟨⟨by decide, by decide⟩, ?_⟩
    intro e he
    simp only [List.mem_cons, List.not_mem_nil, or_false] at he
    rcases he with rfl; simp only [Saveable]
  · intro e he
    simp only [toyDataset, List.mem_cons, List.not_mem_nil, or_false] at he
    rcases he with rfl | rfl | rfl | rfl | rfl | rfl | rfl <;> simp
  · intro v hv e he
    simp only [toyDataset, List.mem_cons, List.not_mem_nil, or_false] at hv
    subst hv
    simp only [List.mem_cons, List.not_mem_nil, or_false] at he
    rcases he with rfl | rfl <;> simp

/-- C21 fails for coordinates: `True` comes back as `1`, with bookkeeping entries beside it. -/
theorem C21_coordinates_fail : ∃ mem file back, save toyYaml false toyDataset [] = (mem, some file, .returned) ∧
    load toyYaml file = .ok back ∧ (toyDataset.coords.lookup "techs") = some [("on", .bool true)] ∧
    (back.coords.lookup "techs").bind (·.lookup "on") = some (.int 1) ∧
    (back.coords.lookup "techs").bind (·.lookup "serialised_bools") = some (.str "on") := by
  refine ⟨_, _, _, rfl, rfl, ?_, ?_, ?_⟩ <;> decide

/-- C21 fails for an empty list: an empty array comes back. -/
theorem C21_empty_list_fails : ∃ mem file back,
    save toyYaml false ⟨[("tags", .list [])], [], []⟩ [] = (mem, some file, .returned) ∧
    load toyYaml file = .ok back ∧ back.attrs = [("tags", .arr0)] :=
  ⟨_, _, _, rfl, rfl, by decide⟩

/-- C21 fails for a dictionary attribute with an `import` entry: saving already raises (restoring
the attributes in memory parses the YAML text), and so does loading. -/
theorem C21_import_entry_fails : ∃ mem file,
    save toyYaml false ⟨[], [("v", [("d", .dict (.leaf "import" (some (.list ["f.yaml"])) .nil))])], []⟩ []
      = (mem, some file, .raised) ∧
    load toyYaml file = .error .valueError :=
  ⟨_, _, rfl, by decide⟩

/-- C22 fails when an attribute cannot be saved: the `TypeError` leaves the attributes of the model
in memory converted (here a boolean of a variable is now a number and `None` is now text). -/
theorem C22_type_error_fails : ∃ mem,
    save toyYaml false ⟨[("n", .none)], [("v", [("on", .bool true), ("bad", .list [.other 1])])], []⟩ []
      = (mem, Option.none, .raised) ∧
    mem.attrs.lookup "n" = some (.str "None") ∧
    (mem.vars.lookup "v").bind (·.lookup "on") = some (.int 1) :=
  ⟨_, rfl, by decide, by decide⟩

end Serialise
end Calliope
