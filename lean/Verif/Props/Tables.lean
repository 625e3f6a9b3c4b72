import Verif.Proofs.Tables5

/-!
# Data tables (C73, C74)
-/

namespace Calliope
namespace Tables

open Grid ModelData

variable {V : Type}

/-- **C73.** A table that loads gives an input a value exactly where a cell says so: a cell with these labels along the
dimensions of its row and column that are not dropped, taken by `select`, and the labels of `add_dims`. -/
theorem C73_value {isProtected : String → Bool} {t : Table} {f : Frame V} {ds : DS V} (hf : Rect f) (hn : Named t f)
    (h : load isProtected t f = .ok ds) (p : String) (ρ : String → Label) (v : ModelData.Scalar V) :
    valueOf ds p ρ = some v ↔ ∃ i j, Says t f i j p ρ v := by
  obtain ⟨s, rfl, L⟩ := loaded hf hn h
  exact loaded_value L p ρ v

/-- **C73.** Two cells never give a value to the same input at the same labels: such a table is refused. -/
theorem C73_clash {isProtected : String → Bool} {t : Table} {f : Frame V} (hf : Rect f) (hn : Named t f)
    {i j i' j' : Nat} {p : String} {ρ : String → Label} {v v' : ModelData.Scalar V}
    (h1 : Says t f i j p ρ v) (h2 : Says t f i' j' p ρ v') (hne : (i, j) ≠ (i', j')) :
    ∃ e, load isProtected t f = .error e := by
  cases h : load isProtected t f with
  | error e => exact ⟨e, rfl⟩
  | ok ds =>
    obtain ⟨rfl, rfl⟩ := says_clash hf hn h h1 h2
    exact absurd rfl hne

/-- **C73.** The inputs of a table are indexed over the dimensions of its rows and columns that are not dropped and those
added, and a table must name its inputs along one of them. -/
theorem C73_dims {isProtected : String → Bool} {t : Table} {f : Frame V} {ds : DS V} (hf : Rect f) (hn : Named t f)
    (h : load isProtected t f = .ok ds) :
    (∀ x ∈ ds.vars, x.2.dims.Nodup ∧ ∀ d, d ∈ x.2.dims ↔ Dim t d) ∧
      ((("inputs" ∈ t.rows.getD [] ∨ "inputs" ∈ t.columns.getD []) ∧ "inputs" ∉ t.drop) ∨
        ∃ items, ("inputs", items) ∈ t.addDims) := by
  obtain ⟨s, rfl, L⟩ := loaded hf hn h
  constructor
  · intro x hx
    rw [(loaded_vars L).2 x hx]
    exact ⟨L.nodup.filter _, mem_dims t⟩
  · have := L.inputs
    unfold finalLevels levels at this
    simp only [List.mem_append, List.mem_reverse, List.mem_map, Prod.exists, exists_and_right, exists_eq_right,
      List.mem_filter, Bool.not_eq_true', List.contains_eq_mem, decide_eq_false_iff_not] at this
    exact this.symm

/-- **C73.** The labels of a value are labels of the dataset. -/
theorem C73_labels {isProtected : String → Bool} {t : Table} {f : Frame V} {ds : DS V} (hf : Rect f) (hn : Named t f)
    (h : load isProtected t f = .ok ds) {p : String} {ρ : String → Label} {v : ModelData.Scalar V}
    (hv : valueOf ds p ρ = some v) {d : String} (hd : Dim t d) : (d, ρ d) ∈ ds.coords := by
  obtain ⟨s, rfl, L⟩ := loaded hf hn h
  obtain ⟨i, j, hs⟩ := (loaded_value L p ρ v).mp hv
  exact says_coords L hs hd

/-- **C73.** A protected input is never loaded. -/
theorem C73_protected {isProtected : String → Bool} {t : Table} {f : Frame V} {ds : DS V} (hf : Rect f) (hn : Named t f)
    (h : load isProtected t f = .ok ds) {p : String} (hp : isProtected p = true) (ρ : String → Label) :
    valueOf ds p ρ = none := by
  obtain ⟨s, rfl, L⟩ := loaded hf hn h
  cases hv : valueOf (toDataset s) p ρ with
  | none => rfl
  | some v =>
    obtain ⟨r, hr, -, ha⟩ := (L.holds p ρ v).mpr ((loaded_value L p ρ v).mp hv)
    have hlen : r.1.length = (finalLevels t).length := by rw [L.wide r hr, L.names, List.length_map]
    rw [L.names] at ha
    have := L.safe r hr p (by rw [L.names]; exact ((row_iff hlen L.nodup L.inputs p ρ).mpr ha).1)
    rw [hp] at this
    cases this

/-- **C73.** Exactly the tables that are accepted load: the file has the levels of the definition, each dimension once, the
labels selected and dimensions dropped are there, `inputs` is a dimension, no two cells clash, and no input is protected. -/
theorem C73_loads {isProtected : String → Bool} {t : Table} {f : Frame V} (hf : Rect f) (hn : Named t f) :
    (∃ ds, load isProtected t f = .ok ds) ↔ Accepts isProtected t f := accepts_iff hf hn

/-- **C73.** It makes no difference which dimensions are on the rows and which on the columns. -/
theorem C73_transposed {isProtected : String → Bool} {t : Table} {f g : Frame V} {ds ds' : DS V}
    (hf : Rect f) (hn : Named t f) (hg : Rect g) (hn' : Named { t with rows := t.columns, columns := t.rows } g)
    (hcells : ∀ i j r c v, Cell f i j r c v ↔ Cell g j i c r v)
    (h : load isProtected t f = .ok ds)
    (h' : load isProtected { t with rows := t.columns, columns := t.rows } g = .ok ds')
    (p : String) (ρ : String → Label) : valueOf ds p ρ = valueOf ds' p ρ := by
  apply Option.ext
  intro v
  rw [C73_value hf hn h, C73_value hg hn' h']
  have key : ∀ i j, Says t f i j p ρ v ↔ Says { t with rows := t.columns, columns := t.rows } g j i p ρ v := by
    intro i j
    unfold Says Fits Along
    simp only [hcells]
    constructor
    · rintro ⟨⟨r, c, h1, h2⟩, h3⟩
      exact ⟨⟨c, r, h1, fun d l ha => h2 d l ha.symm⟩, h3⟩
    · rintro ⟨⟨r, c, h1, h2⟩, h3⟩
      exact ⟨⟨c, r, h1, fun d l ha => h2 d l ha.symm⟩, h3⟩
  constructor
  · rintro ⟨i, j, hs⟩; exact ⟨j, i, (key i j).mp hs⟩
  · rintro ⟨i, j, hs⟩; exact ⟨j, i, (key j i).mpr hs⟩

/-! ### Technologies, nodes and lookups -/

/-- **C74.** A table puts a technology at a node exactly if it has a value over nodes and technologies for them. -/
theorem C74_nodes {isProtected : String → Bool} {t : Table} {f : Frame V} {ds : DS V} (hf : Rect f) (hn : Named t f)
    (h : load isProtected t f = .ok ds) {link : Label → Option Bool} {n : Label} {ts : List Label}
    (hts : nodeTechs ds link n = .ok ts) (k : Label) :
    k ∈ ts ↔ Dim t "nodes" ∧ Dim t "techs" ∧ ∃ i j p ρ v, Says t f i j p ρ v ∧ ρ "nodes" = n ∧ ρ "techs" = k := by
  obtain ⟨s, rfl, L⟩ := loaded hf hn h
  rw [← nodeTechs_mem L n k, (nodeTechs_ok.mp hts).1]

/-- **C74.** It is an error exactly if it does so for a link, or for a technology that is not defined and active
(`link` is `none` for it). -/
theorem C74_links {isProtected : String → Bool} {t : Table} {f : Frame V} {ds : DS V} (hf : Rect f) (hn : Named t f)
    (h : load isProtected t f = .ok ds) (link : Label → Option Bool) (n : Label) :
    (∃ e, nodeTechs ds link n = .error e) ↔
      Dim t "nodes" ∧ Dim t "techs" ∧
        ∃ i j p ρ v, Says t f i j p ρ v ∧ ρ "nodes" = n ∧ link (ρ "techs") ≠ some false := by
  obtain ⟨s, rfl, L⟩ := loaded hf hn h
  have key : (∃ k ∈ techsAt (toDataset s) n, link k ≠ some false) ↔
      Dim t "nodes" ∧ Dim t "techs" ∧
        ∃ i j p ρ v, Says t f i j p ρ v ∧ ρ "nodes" = n ∧ link (ρ "techs") ≠ some false := by
    constructor
    · rintro ⟨k, hk, hl⟩
      obtain ⟨d1, d2, i, j, p, ρ, v, hs, e1, e2⟩ := (nodeTechs_mem L n k).mp hk
      exact ⟨d1, d2, i, j, p, ρ, v, hs, e1, by rw [e2]; exact hl⟩
    · rintro ⟨d1, d2, i, j, p, ρ, v, hs, e1, e2⟩
      exact ⟨ρ "techs", (nodeTechs_mem L n _).mpr ⟨d1, d2, i, j, p, ρ, v, hs, e1, rfl⟩, e2⟩
  rw [← key]
  constructor
  · rintro ⟨e, he⟩
    by_contra hc
    push Not at hc
    rw [nodeTechs_ok.mpr ⟨rfl, hc⟩] at he
    cases he
  · rintro ⟨k, hk, hl⟩
    rcases hr : nodeTechs (toDataset s) link n with e | ts
    · exact ⟨e, rfl⟩
    · exact absurd ((nodeTechs_ok.mp hr).2 k hk) hl

/-- **C74.** A lookup in a table (`carrier_in`, …) gives a technology exactly the labels for which the table has a value. -/
theorem C74_lookup {isProtected : String → Bool} {t : Table} {f : Frame V} {ds : DS V} (hf : Rect f) (hn : Named t f)
    (h : load isProtected t f = .ok ds) {param dim : String} (hd : dim ≠ "techs") {k : Label} {ls : List Label}
    (hls : lookupLabels ds param dim k = .ok ls) (l : Label) :
    l ∈ ls ↔ ∃ i j ρ v, Says t f i j param ρ v ∧ ρ "techs" = k ∧ ρ dim = l := by
  obtain ⟨s, rfl, L⟩ := loaded hf hn h
  unfold lookupLabels at hls
  cases hl : (toDataset s).vars.lookup param with
  | none =>
    rw [hl] at hls
    cases hls
    constructor
    · intro h; cases h
    · rintro ⟨i, j, ρ, v, hs, -⟩
      have := (loaded_value L param ρ v).mpr ⟨i, j, hs⟩
      unfold valueOf at this
      rw [hl] at this
      cases this
  | some a =>
    rw [hl] at hls
    simp only at hls
    split at hls
    · cases hls
    · rename_i hc
      have hdims : a.dims = _ := (loaded_vars L).2 _ (mem_of_lookup' hl)
      simp only [Bool.or_eq_true, Bool.not_eq_true', not_or, Bool.not_eq_false, List.contains_eq_mem,
        decide_eq_true_eq, hdims, mem_dims] at hc
      cases hls
      rw [List.mem_filter, List.mem_dedup, anyCell_says L hd hc.2 hc.1 l k hl, mem_labelsOf]
      constructor
      · rintro ⟨-, i, j, ρ, v, hs, e1, e2⟩
        exact ⟨i, j, ρ, v, hs, e2, e1⟩
      · rintro ⟨i, j, ρ, v, hs, e1, e2⟩
        exact ⟨by rw [← e2]; exact says_coords L hs hc.2, i, j, ρ, v, hs, e2, e1⟩

/-- **C74.** It is an error to give a lookup without technologies or without the dimension it looks up. -/
theorem C74_lookup_dims {isProtected : String → Bool} {t : Table} {f : Frame V} {ds : DS V} (hf : Rect f) (hn : Named t f)
    (h : load isProtected t f = .ok ds) {param dim : String} (k : Label) {i j : Nat} {ρ : String → Label}
    {v : ModelData.Scalar V} (hs : Says t f i j param ρ v) :
    lookupLabels ds param dim k = .error .modelError ↔ ¬ (Dim t "techs" ∧ Dim t dim) := by
  obtain ⟨s, rfl, L⟩ := loaded hf hn h
  have hval := (loaded_value L param ρ v).mpr ⟨i, j, hs⟩
  unfold valueOf at hval
  unfold lookupLabels
  cases hl : (toDataset s).vars.lookup param with
  | none => rw [hl] at hval; cases hval
  | some a =>
    have hdims : a.dims = _ := (loaded_vars L).2 _ (mem_of_lookup' hl)
    have key : (!a.dims.contains "techs" || !a.dims.contains dim) = true ↔ ¬ (Dim t "techs" ∧ Dim t dim) := by
      rw [← mem_dims, ← mem_dims, hdims]
      simp only [Bool.or_eq_true, Bool.not_eq_true', List.contains_eq_mem, decide_eq_false_iff_not]
      tauto
    rw [← key]
    simp only
    split
    · rename_i hb; exact ⟨fun _ => hb, fun _ => rfl⟩
    · rename_i hb
      constructor
      · intro h; cases h
      · intro h; exact absurd h hb

/-- **C74, finding.** The value in a lookup table is not looked at: a cell that says `false` still gives the technology the
label, as `true` would. -/
theorem C74_false_counts {isProtected : String → Bool} {t : Table} {f : Frame V} {ds : DS V} (hf : Rect f) (hn : Named t f)
    (h : load isProtected t f = .ok ds) {param dim : String} (hd : dim ≠ "techs") {k : Label} {ls : List Label}
    (hls : lookupLabels ds param dim k = .ok ls) {i j : Nat} {ρ : String → Label}
    (hs : Says t f i j param ρ (.bool false)) (hk : ρ "techs" = k) : ρ dim ∈ ls :=
  (C74_lookup hf hn h hd hls _).mpr ⟨i, j, ρ, _, hs, hk, rfl⟩

/-! ### Examples -/

namespace Demo

/-- Capacities of technologies at nodes; a column of old values is not selected. -/
def table : Table where
  rows := some ["nodes"]
  columns := some ["techs", "note"]
  select := [("note", ["use"])]
  drop := ["note"]
  addDims := [("inputs", ["flow_cap_min", "flow_cap_max"])]
  rename := [("loc", "nodes")]

def frame : Frame Nat where
  rowNames := [some "loc"]
  colNames := [none, some "note"]
  rowLabels := [["a"], ["b"]]
  colLabels := [["pv", "use"], ["pv", "old"], ["wind", "use"]]
  cells := [[some (.num 1), some (.num 9), none], [some (.num 2), some (.num 8), some (.num 3)]]

def prot (p : String) : Bool := p == "active"

theorem frame_rect : Rect frame := by
  constructor <;> decide

theorem table_named : Named table frame := by
  constructor <;> decide

/-- Labels. -/
def at2 (n k : Label) (d : String) : Label := if d = "nodes" then n else if d = "techs" then k else ""

/-- The table. -/
def loadedTable : DS Nat :=
  match load prot table frame with
  | .ok ds => ds
  | .error _ => ⟨[], []⟩

theorem loads : load prot table frame = .ok loadedTable := rfl

example : valueOf loadedTable "flow_cap_max" (at2 "b" "pv") = some (.num 2) := by decide +kernel
example : valueOf loadedTable "flow_cap_min" (at2 "b" "wind") = some (.num 3) := by decide +kernel
example : valueOf loadedTable "flow_cap_min" (at2 "a" "wind") = none := by decide +kernel

example : ∃ i j, Says table frame i j "flow_cap_max" (at2 "a" "pv") (.num 1) :=
  (C73_value frame_rect table_named loads _ _ _).mp (by decide +kernel)

example : Accepts prot table frame := (C73_loads frame_rect table_named).mp ⟨_, loads⟩

/-- Without the selection, two cells clash. -/
example : load prot { table with select := [] } frame = .error .modelError := rfl

theorem fits_pv (note : Label) :
    Fits { table with select := [] } ["a"] ["pv", note] (target "flow_cap_max" (at2 "a" "pv")) := by
  intro d l h
  simp only [Along, table, Option.getD_some, List.zip_cons_cons, List.zip_nil_right, List.mem_cons, Prod.mk.injEq,
    List.not_mem_nil, or_false] at h
  rcases h with ⟨rfl, rfl⟩ | ⟨rfl, rfl⟩ | ⟨rfl, rfl⟩ <;> simp [table, target, at2]

/-- The two cells that clash. -/
example : ∃ e, load prot { table with select := [] } frame = .error e := by
  have hadd : ∀ d items, (d, items) ∈ table.addDims → target "flow_cap_max" (at2 "a" "pv") d ∈ items := by
    intro d items h
    simp only [table, List.mem_cons, Prod.mk.injEq, List.not_mem_nil, or_false] at h
    obtain ⟨rfl, rfl⟩ := h
    simp [target]
  refine C73_clash (i := 0) (j := 0) (i' := 0) (j' := 1) (p := "flow_cap_max") (ρ := at2 "a" "pv") (v := .num 1) (v' := .num 9)
    frame_rect ?_ ⟨⟨["a"], ["pv", "use"], ⟨rfl, rfl, _, rfl, rfl⟩, fits_pv _⟩, hadd⟩
    ⟨⟨["a"], ["pv", "old"], ⟨rfl, rfl, _, rfl, rfl⟩, fits_pv _⟩, hadd⟩ (by decide)
  constructor <;> decide

/-- Protected inputs are refused. -/
example : load prot { table with addDims := [("inputs", ["active"])] } frame = .error .modelError := rfl

/-- Inputs must be named. -/
example : load prot { table with addDims := [] } frame = .error .modelError := rfl

example : nodeTechs loadedTable (fun _ => some false) "a" = .ok ["pv"] := by decide +kernel
example : nodeTechs loadedTable (fun _ => some false) "b" = .ok ["pv", "wind"] := by decide +kernel
example : nodeTechs loadedTable (fun k => some (k == "wind")) "b" = .error .modelError := by decide +kernel
example : nodeTechs loadedTable (fun k => if k == "wind" then none else some false) "b" = .error .keyError := by decide +kernel

/-- Carriers of technologies; one cell says `false`. -/
def carriers : Table where
  rows := some ["techs"]
  columns := some ["carriers"]
  select := []
  drop := []
  addDims := [("inputs", ["carrier_in"])]
  rename := []

def carrierFrame : Frame Nat where
  rowNames := [some "techs"]
  colNames := [some "carriers"]
  rowLabels := [["chp"], ["boiler"]]
  colLabels := [["gas"], ["heat"]]
  cells := [[some (.bool true), some (.bool false)], [some (.bool true), none]]

def loadedCarriers : DS Nat :=
  match load prot carriers carrierFrame with
  | .ok ds => ds
  | .error _ => ⟨[], []⟩

theorem carriers_load : load prot carriers carrierFrame = .ok loadedCarriers := rfl

example : lookupLabels loadedCarriers "carrier_in" "carriers" "boiler" = .ok ["gas"] := by decide +kernel

/-- The finding: the cell for heat says `false`. -/
example : lookupLabels loadedCarriers "carrier_in" "carriers" "chp" = .ok ["heat", "gas"] := by decide +kernel

example : lookupLabels loadedCarriers "carrier_in" "nodes" "chp" = .error .modelError := by decide +kernel

end Demo

end Tables
end Calliope
