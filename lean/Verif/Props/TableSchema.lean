import Verif.Model.TableSchema
import Verif.Spec.TableSchema
import Verif.Props.Tables

/-!
# C107: data table definitions that pass validation can be loaded
-/

namespace Calliope
namespace Tables

open Grid ModelData

variable {V : Type}

theorem mem_notDropped (t : Table) (names : Option (List String)) (d : String) :
    d ∈ notDropped t names ↔ d ∈ names.getD [] ∧ d ∉ t.drop := by
  simp [notDropped, List.mem_filter]

theorem kept_iff (t : Table) (d : String) : d ∈ notDropped t t.rows ++ notDropped t t.columns ↔ Kept t d := by
  rw [List.mem_append, mem_notDropped, mem_notDropped]
  unfold Kept OnAxis
  tauto

theorem uniqueFields_iff (t : Table) : uniqueFields t = true ↔ Lists t := by
  unfold uniqueFields
  simp only [Bool.and_eq_true, decide_eq_true_eq, List.all_eq_true]
  constructor
  · rintro ⟨⟨⟨h1, h2⟩, h3⟩, h4⟩
    exact ⟨h1, h2, h3, fun d ls h => h4 _ h⟩
  · rintro ⟨h1, h2, h3, h4⟩
    exact ⟨⟨⟨h1, h2⟩, h3⟩, fun x h => h4 x.1 x.2 h⟩

/-- **C107.** Validation accepts exactly the definitions that the schema describes. -/
theorem C107_valid (t : Table) : validate t = .ok () ↔ Valid t := by
  unfold validate
  split
  · rename_i h
    refine ⟨fun h' => (by cases h'), fun h' => ?_⟩
    rw [(uniqueFields_iff t).mpr h'.lists] at h
    cases h
  rename_i h1
  have h1 : Lists t := (uniqueFields_iff t).mp (by simpa using h1)
  split
  · rename_i h
    refine ⟨fun h' => (by cases h'), fun h' => ?_⟩
    obtain ⟨d, hd⟩ := h'.shape
    rw [← kept_iff] at hd
    simp only [Bool.and_eq_true, List.isEmpty_iff] at h
    rw [h.1, h.2] at hd
    cases hd
  rename_i h2
  have h2 : ∃ d, Kept t d := by
    simp only [Bool.and_eq_true, List.isEmpty_iff, ← List.append_eq_nil_iff] at h2
    obtain ⟨d, hd⟩ := List.exists_mem_of_ne_nil _ h2
    exact ⟨d, (kept_iff t d).mp hd⟩
  split
  · rename_i h
    refine ⟨fun h' => (by cases h'), fun h' => ?_⟩
    simp only [List.any_eq_true, List.contains_iff_mem, mem_notDropped] at h
    obtain ⟨d, ⟨h3, h4⟩, h5, -⟩ := h
    exact absurd (h'.overlap d h3 h5) h4
  rename_i h3
  have h3 : ∀ d, d ∈ t.rows.getD [] → d ∈ t.columns.getD [] → d ∈ t.drop := by
    simp only [List.any_eq_true, List.contains_iff_mem, mem_notDropped, not_exists, not_and] at h3
    intro d ha hb
    by_contra hc
    exact h3 d ⟨ha, hc⟩ hb hc
  split
  · rename_i h
    refine ⟨fun h' => (by cases h'), fun h' => ?_⟩
    simp only [List.any_eq_true, List.contains_iff_mem, kept_iff] at h
    obtain ⟨x, hx, hk⟩ := h
    exact absurd hk (h'.added x.1 x.2 hx)
  rename_i h4
  have h4 : ∀ d items, (d, items) ∈ t.addDims → ¬ Kept t d := by
    simp only [List.any_eq_true, List.contains_iff_mem, kept_iff, not_exists, not_and] at h4
    exact fun d items h => h4 _ h
  split
  · rename_i h
    refine ⟨fun h' => (by cases h'), fun h' => ?_⟩
    simp only [List.any_eq_true, Bool.not_eq_true', List.contains_eq_mem, decide_eq_false_iff_not, kept_iff] at h
    obtain ⟨x, hx, hk⟩ := h
    exact absurd (h'.renamed x.1 x.2 hx) hk
  rename_i h5
  have h5 : ∀ n d, (n, d) ∈ t.rename → Kept t d := by
    intro n d h
    by_contra hc
    apply h5
    simp only [List.any_eq_true, Bool.not_eq_true', List.contains_eq_mem, decide_eq_false_iff_not, kept_iff]
    exact ⟨_, h, hc⟩
  exact ⟨fun _ => ⟨h1, h2, h3, h4, h5⟩, fun _ => rfl⟩

/-- **C107 (partial).** A definition by which some table loads passes validation, if dimensions are renamed only to those of
rows and columns. -/
theorem C107_loaded_partial {isProtected : String → Bool} {t : Table} {f : Frame V} {ds : DS V} (hf : Readable t f)
    (hdrop : t.drop.Nodup) (hsel : ∀ d ls, (d, ls) ∈ t.select → ls.Nodup)
    (hren : ∀ n d, (n, d) ∈ t.rename → Kept t d) (h : load isProtected t f = .ok ds) : validate t = .ok () := by
  have A := (C73_loads hf.rect hf.named).mp ⟨ds, h⟩
  have hnd := List.nodup_append.mp A.once
  refine (C107_valid t).mpr ⟨⟨hnd.1, hnd.2.1, hdrop, hsel⟩, ?_, ?_, ?_, hren⟩
  · by_cases hd : t.drop = []
    · have key : ∀ (names : Option (List String)) (loaded : List (Option String)), AxisFits t loaded names → loaded ≠ [] →
          names ≠ none → ∃ d, d ∈ names.getD [] := by
        intro names loaded h1 h2 h3
        cases names with
        | none => exact absurd rfl h3
        | some ds =>
          cases ds with
          | nil => exact absurd (List.length_eq_zero_iff.mp h1.1) h2
          | cons d ds => exact ⟨d, List.mem_cons_self⟩
      rcases A.axes with h1 | h1
      · obtain ⟨d, h2⟩ := key _ _ A.rows hf.rows h1
        exact ⟨d, Or.inl h2, by simp [hd]⟩
      · obtain ⟨d, h2⟩ := key _ _ A.columns hf.columns h1
        exact ⟨d, Or.inr h2, by simp [hd]⟩
    · exact A.left hd
  · intro d h1 h2
    exact absurd rfl (hnd.2.2 d h1 d h2)
  · exact fun d items hi hk => hk.2 (A.addedNew d items hi hk.1)

/-- **C107.** A definition by which some table loads is usable. -/
theorem C107_loaded_usable {isProtected : String → Bool} {t : Table} {f : Frame V} {ds : DS V} (hf : Readable t f)
    (h : load isProtected t f = .ok ds) : Usable t := by
  have A := (C73_loads hf.rect hf.named).mp ⟨ds, h⟩
  have hnd := List.nodup_append.mp A.once
  refine ⟨?_, ?_, ?_, A.inputs, A.items⟩
  · intro h1
    have := A.rows
    rw [h1] at this
    exact hf.rows (List.length_eq_zero_iff.mp this.1)
  · intro h1
    have := A.columns
    rw [h1] at this
    exact hf.columns (List.length_eq_zero_iff.mp this.1)
  · intro d hd
    rcases A.drop d hd with h1 | h1
    · exact Or.inl ⟨h1, fun h2 => hnd.2.2 d h1 d h2 rfl⟩
    · exact Or.inr ⟨fun h2 => hnd.2.2 d h2 d h1 rfl, h1⟩

/-- A table of one cell, with the label `p` on every level. -/
def oneCell (t : Table) (p : Label) (v : ModelData.Scalar V) : Frame V where
  rowNames := (t.rows.getD [""]).map (fun _ => none)
  colNames := (t.columns.getD [""]).map (fun _ => none)
  rowLabels := [(t.rows.getD [""]).map (fun _ => p)]
  colLabels := [(t.columns.getD [""]).map (fun _ => p)]
  cells := [[some v]]

theorem oneCell_cell (t : Table) (p : Label) (v : ModelData.Scalar V) {i j : Nat} {r c : List Label} {x : Option (ModelData.Scalar V)}
    (h : Cell (oneCell t p v) i j r c x) : i = 0 ∧ j = 0 := by
  obtain ⟨h1, h2, -⟩ := h
  constructor
  · cases i with
    | zero => rfl
    | succ i => simp [oneCell] at h1
  · cases j with
    | zero => rfl
    | succ j => simp [oneCell] at h2

theorem oneCell_labels (t : Table) (p : Label) (v : ModelData.Scalar V) {i j : Nat} {r c : List Label} {x : Option (ModelData.Scalar V)}
    (h : Cell (oneCell t p v) i j r c x) {d : String} {l : Label} (ha : Along t r c d l) : l = p := by
  obtain ⟨rfl, rfl⟩ := oneCell_cell t p v h
  obtain ⟨h1, h2, -⟩ := h
  simp only [oneCell, List.getElem?_cons_zero, Option.some.injEq] at h1 h2
  subst h1 h2
  rcases ha with ha | ha
  · have := (List.of_mem_zip ha).2
    obtain ⟨-, -, h⟩ := List.mem_map.mp this
    exact h.symm
  · have := (List.of_mem_zip ha).2
    obtain ⟨-, -, h⟩ := List.mem_map.mp this
    exact h.symm

theorem axis_none (t : Table) (names : Option (List String)) :
    AxisFits t ((names.getD [""]).map (fun _ => none)) names := by
  cases names with
  | none => rfl
  | some ns =>
    refine ⟨by simp, ?_⟩
    intro k n d h
    rw [Option.getD_some, List.getElem?_map] at h
    cases hk : ns[k]? <;> rw [hk] at h <;> cases h

/-- **C107.** A definition that passes validation and is usable loads some table that has data, if labels of added dimensions
are not repeated and no added input is protected. -/
theorem C107_usable {isProtected : String → Bool} {t : Table} (hv : validate t = .ok ()) (hu : Usable t)
    (hsel : t.select = []) (hren : (t.rename.map Prod.fst).Nodup) (hadd : (t.addDims.map Prod.fst).Nodup)
    (hitems : ∀ d items, (d, items) ∈ t.addDims → items.Nodup)
    (hprot : ∀ items, ("inputs", items) ∈ t.addDims → ∀ l ∈ items, isProtected l = false)
    {p : Label} (hp : isProtected p = false) (v : ModelData.Scalar V) :
    ∃ f : Frame V, Readable t f ∧ f.cells = [[some v]] ∧ ∃ ds, load isProtected t f = .ok ds := by
  have H := (C107_valid t).mp hv
  have hn : Named t (oneCell t p v) := ⟨fun _ => rfl, fun _ => rfl, by simp [hsel], hren⟩
  have hr : Rect (oneCell t p v) := by
    constructor
    · rfl
    · intro line hl
      simp only [oneCell, List.mem_singleton] at hl
      subst hl
      rfl
    · intro r h
      simp only [oneCell, List.mem_singleton] at h
      subst h
      simp [oneCell]
    · intro r h
      simp only [oneCell, List.mem_singleton] at h
      subst h
      simp [oneCell]
  have ne : ∀ names : Option (List String), names ≠ some [] →
      (names.getD [""]).map (fun _ => (none : Option String)) ≠ [] := by
    intro names h1 h2
    rw [List.map_eq_nil_iff] at h2
    cases names with
    | none => cases h2
    | some ns => exact h1 (by rw [Option.getD_some] at h2; rw [h2])
  refine ⟨oneCell t p v, ⟨hr, hn, ne _ hu.rows, ne _ hu.columns⟩, rfl, (C73_loads hr hn).mpr ?_⟩
  exact {
    rows := axis_none t t.rows
    columns := axis_none t t.columns
    axes := by
      obtain ⟨d, hd, -⟩ := H.shape
      rcases hd with hd | hd
      · left
        intro h
        rw [h] at hd
        cases hd
      · right
        intro h
        rw [h] at hd
        cases hd
    once := by
      refine List.nodup_append.mpr ⟨H.lists.rows, H.lists.columns, ?_⟩
      intro a ha b hb hab
      subst hab
      rcases hu.drop a (H.overlap a ha hb) with h | h
      · exact h.2 hb
      · exact h.1 ha
    addedOnce := hadd
    addedNew := by
      intro d items hi ho
      by_contra hc
      exact H.added d items hi ⟨ho, hc⟩
    select := by
      intro d ls l h
      rw [hsel] at h
      cases h
    drop := by
      intro d hd
      rcases hu.drop d hd with h | h
      · exact Or.inl h.1
      · exact Or.inr h.2
    left := fun _ => H.shape
    items := hu.items
    inputs := hu.inputs
    clash := by
      intro i j r c i' j' r' c' h1 h2 _
      obtain ⟨⟨x, hc, -⟩, -⟩ := h1
      obtain ⟨⟨y, hc', -⟩, -⟩ := h2
      obtain ⟨rfl, rfl⟩ := oneCell_cell t p v hc
      obtain ⟨rfl, rfl⟩ := oneCell_cell t p v hc'
      exact ⟨rfl, rfl⟩
    itemsOnce := fun i j r c _ d items h => hitems d items h
    allowed := by
      intro i j r c h1
      obtain ⟨⟨x, hc, -⟩, -⟩ := h1
      refine ⟨fun l ha _ => ?_, hprot⟩
      rw [oneCell_labels t p v hc ha]
      exact hp }

/-- **C107.** Validation accepts definitions by which nothing can be loaded: a dimension is dropped that is not there. -/
theorem C107_drop_missing {isProtected : String → Bool} {t : Table} {d : String} (hd : d ∈ t.drop) (ho : ¬ OnAxis t d)
    {f : Frame V} (hf : Readable t f) : ∃ e, load isProtected t f = .error e := by
  cases h : load isProtected t f with
  | error e => exact ⟨e, rfl⟩
  | ok ds =>
    rcases (C107_loaded_usable hf h).drop d hd with h1 | h1
    · exact absurd (Or.inl h1.1) ho
    · exact absurd (Or.inr h1.2) ho

/-- **C107.** Nor can anything be loaded if a dimension is on both axes, though validation accepts it if it is dropped. -/
theorem C107_drop_both {isProtected : String → Bool} {t : Table} {d : String} (hr : d ∈ t.rows.getD [])
    (hc : d ∈ t.columns.getD []) {f : Frame V} (hf : Readable t f) : ∃ e, load isProtected t f = .error e := by
  cases h : load isProtected t f with
  | error e => exact ⟨e, rfl⟩
  | ok ds =>
    have A := (C73_loads hf.rect hf.named).mp ⟨ds, h⟩
    exact absurd rfl ((List.nodup_append.mp A.once).2.2 d hr d hc)

/-- **C107.** Nor if the inputs are not named. -/
theorem C107_no_inputs {isProtected : String → Bool} {t : Table} (hk : ¬ Kept t "inputs")
    (ha : ∀ items, ("inputs", items) ∉ t.addDims) {f : Frame V} (hf : Readable t f) :
    ∃ e, load isProtected t f = .error e := by
  cases h : load isProtected t f with
  | error e => exact ⟨e, rfl⟩
  | ok ds =>
    rcases (C107_loaded_usable hf h).inputs with h1 | ⟨items, h1⟩
    · exact absurd h1 hk
    · exact absurd h1 (ha items)

theorem selection_cons {sel : List (String × List Label)} {d : String} {ls : List Label} {n : Option String} (h : n ≠ some d) :
    selection ((d, ls) :: sel) n = selection sel n := by
  cases n with
  | none => rfl
  | some n =>
    have : (n == d) = false := by
      rw [beq_eq_false_iff_ne]
      exact fun he => h (by rw [he])
    simp only [selection, List.lookup_cons, this]

theorem selectRows_cons {sel : List (String × List Label)} {d : String} {ls : List Label} {s : Tidy V}
    (h : some d ∉ s.names) : selectRows ((d, ls) :: sel) s = selectRows sel s := by
  have h1 : s.names.zipIdx.any (missing ((d, ls) :: sel) s) = s.names.zipIdx.any (missing sel s) := by
    rw [Bool.eq_iff_iff, List.any_eq_true, List.any_eq_true]
    refine exists_congr fun x => and_congr_right fun hx => ?_
    have hm : x.1 ∈ s.names := List.fst_mem_of_mem_zipIdx hx
    have : x.1 ≠ some d := fun he => h (he ▸ hm)
    unfold missing
    rw [selection_cons this]
  have h2 : s.rows.filter (fun r => selected ((d, ls) :: sel) s.names r.1) =
      s.rows.filter (fun r => selected sel s.names r.1) := by
    apply List.filter_congr
    intro r _
    unfold selected
    rw [Bool.eq_iff_iff, List.all_eq_true, List.all_eq_true]
    refine forall₂_congr fun x hx => ?_
    have : x.1 ≠ some d := fun he => h (he ▸ (List.of_mem_zip hx).1)
    unfold takes
    rw [selection_cons this]
  unfold selectRows
  rw [h1, h2]

/-- **C107.** A selection along a dimension that is not there passes validation and has no effect. -/
theorem C107_select_ignored {isProtected : String → Bool} {t : Table} {f : Frame V} (hf : Readable t f) {d : String}
    (hd : ¬ OnAxis t d) (ls : List Label) :
    load isProtected { t with select := (d, ls) :: t.select } f = load isProtected t f := by
  unfold load
  cases h1 : axisNames t.rename t.columns f.colNames with
  | error e => rfl
  | ok cs =>
    cases h2 : axisNames t.rename t.rows f.rowNames with
    | error e => rfl
    | ok rs =>
      cases h3 : toTidy t f rs cs with
      | error e =>
        have h4 : toTidy { t with select := (d, ls) :: t.select } f rs cs = .error e := h3
        simp only [h3, h4]
      | ok s =>
        have h4 : toTidy { t with select := (d, ls) :: t.select } f rs cs = .ok s := h3
        have hs : some d ∉ s.names := by
          rw [(stacked hf.rect hf.named h2 h1 h3).names]
          intro h
          obtain ⟨x, hx, hxd⟩ := List.mem_map.mp h
          cases hxd
          exact hd ((mem_levels t d).mp hx)
        have h5 : process { t with select := (d, ls) :: t.select } s = process t s := by
          unfold process
          rw [selectRows_cons hs]
        simp only [h3, h4, h5]

/-! ### Definitions -/

namespace SchemaDemo

open Demo

theorem readable : Readable table frame := ⟨frame_rect, table_named, by decide, by decide⟩

/-- A definition with a selection, a dimension that is dropped, one that is added and one that is renamed. -/
example : validate table = .ok () := by decide +kernel
example : Valid table := (C107_valid table).mp (by decide +kernel)
example : Usable table := C107_loaded_usable readable loads
example : validate table = .ok () :=
  C107_loaded_partial readable (by decide) (by
    intro d ls h
    simp only [table, List.mem_cons, Prod.mk.injEq, List.not_mem_nil, or_false] at h
    obtain ⟨-, rfl⟩ := h
    decide) (by
    intro n d h
    simp only [table, List.mem_cons, Prod.mk.injEq, List.not_mem_nil, or_false] at h
    obtain ⟨-, rfl⟩ := h
    exact ⟨Or.inl (by decide), by decide⟩) loads

/-- Overlapping rows and columns, an added dimension that is there already, and everything dropped. -/
example : validate { table with columns := some ["techs", "nodes"] } = .error .valueError := by decide +kernel
example : validate { table with addDims := [("techs", ["pv"])] } = .error .valueError := by decide +kernel
example : validate { table with drop := ["nodes", "techs", "note"] } = .error .valueError := by decide +kernel
example : validate { table with rename := [("loc", "place")] } = .error .valueError := by decide +kernel
example : validate { table with rows := some ["nodes", "nodes"] } = .error .valueError := by decide +kernel

/-- **C107.** A definition by which a table loads is rejected: the name of a dimension that is dropped is set right. -/
theorem C107_rename_dropped :
    let t : Table := { table with rename := [("loc", "nodes"), ("Note", "note")] }
    validate t = .error .valueError ∧
      ∃ ds, load prot t { frame with colNames := [none, some "Note"] } = .ok ds := by
  refine ⟨by decide +kernel, loadedTable, rfl⟩

/-- A usable definition without a selection. -/
def plain : Table := { table with select := [] }

theorem plain_usable : Usable plain where
  rows := by decide
  columns := by decide
  drop := by decide
  inputs := Or.inr ⟨_, List.mem_cons_self⟩
  items := by
    intro d items h
    simp only [plain, table, List.mem_cons, Prod.mk.injEq, List.not_mem_nil, or_false] at h
    obtain ⟨-, rfl⟩ := h
    decide

example : ∃ f : Frame Nat, Readable plain f ∧ f.cells = [[some (.num 1)]] ∧ ∃ ds, load prot plain f = .ok ds := by
  refine C107_usable (by decide +kernel) plain_usable rfl (by decide) (by decide) ?_ ?_ (p := "a") (by decide +kernel) _
  · intro d items h
    simp only [plain, table, List.mem_cons, Prod.mk.injEq, List.not_mem_nil, or_false] at h
    obtain ⟨-, rfl⟩ := h
    decide
  · intro items h
    simp only [plain, table, List.mem_cons, Prod.mk.injEq, List.not_mem_nil, or_false] at h
    obtain ⟨-, rfl⟩ := h
    decide +kernel

/-- Accepted, and never loads: the dropped dimension is not there, or is there twice. -/
def dropped : Table := { table with drop := ["note", "comment"] }
def twice : Table := { table with rows := some ["nodes", "note"] }

theorem C107_dropped : validate dropped = .ok () ∧
    ∀ f : Frame Nat, Readable dropped f → ∃ e, load prot dropped f = .error e :=
  ⟨by decide +kernel, fun _ hf => C107_drop_missing (d := "comment") (by decide) (by unfold OnAxis; decide) hf⟩

theorem C107_twice : validate twice = .ok () ∧
    ∀ f : Frame Nat, Readable twice f → ∃ e, load prot twice f = .error e :=
  ⟨by decide +kernel, fun _ hf => C107_drop_both (d := "note") (by decide) (by decide) hf⟩

/-- Accepted, and never loads: there are no inputs. -/
def silent : Table := { table with addDims := [] }

theorem C107_silent : validate silent = .ok () ∧
    ∀ f : Frame Nat, Readable silent f → ∃ e, load prot silent f = .error e :=
  ⟨by decide +kernel, fun _ hf => C107_no_inputs (by unfold Kept OnAxis; decide) (by intro items h; cases h) hf⟩

/-- Frames that can be read by these. -/
example : Readable dropped frame ∧ Readable silent frame := by
  refine ⟨⟨frame_rect, ?_, by decide, by decide⟩, ⟨frame_rect, ?_, by decide, by decide⟩⟩ <;> constructor <;> decide

/-- A misspelled selection. -/
example : load prot { plain with select := [("notes", ["use"])] } frame = load prot plain frame :=
  C107_select_ignored (t := plain) ⟨frame_rect, by constructor <;> decide, by decide, by decide⟩
    (by unfold OnAxis; decide) _

end SchemaDemo

end Tables
end Calliope
