import Verif.Proofs.Tables2
import Verif.Proofs.Clean

/-!
# Proofs about loading data tables: the table as a whole
-/

namespace Calliope
namespace Tables

open Grid ModelData

variable {V : Type}

/-- The levels of the processed table. -/
def finalLevels (t : Table) : List String :=
  (t.addDims.map Prod.fst).reverse ++ (levels t).filter (fun d => !t.drop.contains d)

theorem check_ok {isProtected : String → Bool} {s : Tidy V} (h : check isProtected s = .ok ()) :
    some "inputs" ∈ s.names ∧ (s.rows.map Prod.fst).Nodup ∧ s.names.Nodup ∧
      ∀ r ∈ s.rows, ∀ p, labelAt s.names r.1 "inputs" = some p → isProtected p = false := by
  unfold check at h
  split at h
  · cases h
  · rename_i h1
    split at h
    · cases h
    · rename_i h2
      split at h
      · cases h
      · rename_i h3
        split at h
        · cases h
        · rename_i h4
          refine ⟨by simpa using h1, by simpa [duplicated] using h2, by simpa using h3, ?_⟩
          intro r hr p hp
          simp only [List.any_eq_true, not_exists, not_and] at h4
          have := h4 r hr
          rw [hp] at this
          simpa using this

theorem load_ok {isProtected : String → Bool} {t : Table} {f : Frame V} {ds : DS V} (h : load isProtected t f = .ok ds) :
    ∃ rs cs s s', axisNames t.rename t.rows f.rowNames = .ok rs ∧ axisNames t.rename t.columns f.colNames = .ok cs ∧
      toTidy t f rs cs = .ok s ∧ process t s = .ok s' ∧ check isProtected s' = .ok () ∧ ds = toDataset s' := by
  unfold load at h
  cases h1 : axisNames t.rename t.columns f.colNames with
  | error e => rw [h1] at h; cases h
  | ok cs =>
    rw [h1] at h
    simp only at h
    cases h2 : axisNames t.rename t.rows f.rowNames with
    | error e => rw [h2] at h; cases h
    | ok rs =>
      rw [h2] at h
      simp only at h
      cases h3 : toTidy t f rs cs with
      | error e => rw [h3] at h; cases h
      | ok s =>
        rw [h3] at h
        simp only at h
        cases h4 : process t s with
        | error e => rw [h4] at h; cases h
        | ok s' =>
          rw [h4] at h
          simp only at h
          cases h5 : check isProtected s' with
          | error e => rw [h5] at h; cases h
          | ok u =>
            rw [h5] at h
            cases h
            exact ⟨rs, cs, s, s', rfl, rfl, h3, h4, h5, rfl⟩

theorem tidy_wide {t : Table} {f : Frame V} (hf : Rect f) (hn : Named t f) {rs cs : List (Option String)} {s : Tidy V}
    (hr : axisNames t.rename t.rows f.rowNames = .ok rs) (hc : axisNames t.rename t.columns f.colNames = .ok cs)
    (h : toTidy t f rs cs = .ok s) : Wide s := by
  obtain ⟨h1, keep, h2, -⟩ := toTidy_ok hn hr hc h
  intro r hm
  rw [h2, List.mem_map] at hm
  obtain ⟨⟨a, b, v⟩, hx, rfl⟩ := hm
  obtain ⟨i, j, hcell⟩ := mem_entries.mp (List.mem_filter.mp hx).1
  obtain ⟨l1, l2⟩ := cell_lengths hf hr hc hcell
  rw [h1, List.length_map]
  exact labelsAt_length l1 l2

theorem keep_levels (t : Table) :
    ((levels t).map some).filter (keepLevel t.drop) = ((levels t).filter (fun d => !t.drop.contains d)).map some := by
  rw [List.filter_map]
  rfl

theorem final_names {t : Table} {f : Frame V} (hf : Rect f) (hn : Named t f) {rs cs : List (Option String)} {s s' : Tidy V}
    (hr : axisNames t.rename t.rows f.rowNames = .ok rs) (hc : axisNames t.rename t.columns f.colNames = .ok cs)
    (h : toTidy t f rs cs = .ok s) (hp : process t s = .ok s') : s'.names = (finalLevels t).map some := by
  rw [process_names (tidy_wide hf hn hr hc h) hp, (toTidy_ok hn hr hc h).1, keep_levels]
  unfold finalLevels
  rw [List.map_append, List.map_reverse, List.map_map]
  rfl

/-- What the processed table has at the labels `e`. -/
theorem final_holds {t : Table} {f : Frame V} (hf : Rect f) (hn : Named t f) {rs cs : List (Option String)} {s s' : Tidy V}
    (hr : axisNames t.rename t.rows f.rowNames = .ok rs) (hc : axisNames t.rename t.columns f.colNames = .ok cs)
    (h : toTidy t f rs cs = .ok s) (hp : process t s = .ok s') (e : String → Label) (v : ModelData.Scalar V) :
    Holds s' e (some v) ↔
      (∃ i j r c, Cell f i j r c (some v) ∧ Fits t r c e) ∧ ∀ d items, (d, items) ∈ t.addDims → e d ∈ items := by
  rw [process_holds hn.select (tidy_wide hf hn hr hc h) hp]
  refine and_congr ?_ Iff.rfl
  obtain ⟨h1, keep, h2, h3⟩ := toTidy_ok hn hr hc h
  rw [h1, h2]
  constructor
  · rintro ⟨r, hm, hv, ha⟩
    rw [List.mem_map] at hm
    obtain ⟨⟨a, b, w⟩, hx, rfl⟩ := hm
    obtain ⟨i, j, hcell⟩ := mem_entries.mp (List.mem_filter.mp hx).1
    simp only at hv
    subst hv
    refine ⟨i, j, a, b, hcell, ?_⟩
    intro d l hal
    exact ha d l ((along_iff (cell_lengths hf hr hc hcell).1 d l).mpr hal)
  · rintro ⟨i, j, r, c, hcell, hfit⟩
    refine ⟨(labelsAt t r c, some v), ?_, rfl, ?_⟩
    · rw [List.mem_map]
      exact ⟨(r, c, some v), List.mem_filter.mpr ⟨mem_entries.mpr ⟨i, j, hcell⟩, (h3 _).mpr (Or.inl (by simp))⟩, rfl⟩
    · intro d l hm
      exact hfit d l ((along_iff (cell_lengths hf hr hc hcell).1 d l).mp hm)

theorem says_iff {t : Table} {f : Frame V} {p : String} {ρ : String → Label} {v : ModelData.Scalar V} :
    (∃ i j, Says t f i j p ρ v) ↔
      (∃ i j r c, Cell f i j r c (some v) ∧ Fits t r c (target p ρ)) ∧
        ∀ d items, (d, items) ∈ t.addDims → target p ρ d ∈ items := by
  unfold Says
  constructor
  · rintro ⟨i, j, ⟨r, c, h1, h2⟩, h3⟩
    exact ⟨⟨i, j, r, c, h1, h2⟩, h3⟩
  · rintro ⟨⟨i, j, r, c, h1, h2⟩, h3⟩
    exact ⟨i, j, ⟨r, c, h1, h2⟩, h3⟩

/-- What is known about a table that was loaded. -/
structure Loaded (isProtected : String → Bool) (t : Table) (f : Frame V) (s : Tidy V) : Prop where
  names : s.names = (finalLevels t).map some
  nodup : (finalLevels t).Nodup
  inputs : "inputs" ∈ finalLevels t
  wide : Wide s
  rows : (s.rows.map Prod.fst).Nodup
  holds : ∀ p ρ v, Holds s (target p ρ) (some v) ↔ ∃ i j, Says t f i j p ρ v
  safe : ∀ r ∈ s.rows, ∀ p, labelAt s.names r.1 "inputs" = some p → isProtected p = false

theorem loaded {isProtected : String → Bool} {t : Table} {f : Frame V} {ds : DS V} (hf : Rect f) (hn : Named t f)
    (h : load isProtected t f = .ok ds) : ∃ s, ds = toDataset s ∧ Loaded isProtected t f s := by
  obtain ⟨rs, cs, s, s', hr, hc, h1, h2, h3, h4⟩ := load_ok h
  obtain ⟨k1, k2, k3, k4⟩ := check_ok h3
  have hnames := final_names hf hn hr hc h1 h2
  rw [hnames] at k1 k3
  refine ⟨s', h4, ⟨hnames, List.Nodup.of_map _ k3, ?_, process_wide (tidy_wide hf hn hr hc h1) h2, k2, ?_, k4⟩⟩
  · simpa using k1
  · intro p ρ v
    rw [final_holds hf hn hr hc h1 h2, says_iff]

theorem loaded_value {isProtected : String → Bool} {t : Table} {f : Frame V} {s : Tidy V} (L : Loaded isProtected t f s)
    (p : String) (ρ : String → Label) (v : ModelData.Scalar V) :
    valueOf (toDataset s) p ρ = some v ↔ ∃ i j, Says t f i j p ρ v := by
  rw [toDataset_value L.names L.nodup L.inputs L.wide L.rows, L.holds]

/-! ### Dimensions and labels -/

theorem mem_dims (t : Table) (d : String) : d ∈ (finalLevels t).filter (fun n => n ≠ "inputs") ↔ Dim t d := by
  unfold finalLevels levels Dim
  simp only [List.mem_filter, List.mem_append, List.mem_reverse, List.mem_map, Prod.exists, exists_and_right, exists_eq_right,
    ne_eq, decide_not, Bool.not_eq_true', decide_eq_false_iff_not, List.contains_eq_mem]
  constructor
  · rintro ⟨h1 | ⟨h1, h2⟩, h3⟩
    · exact ⟨h3, Or.inr h1⟩
    · exact ⟨h3, Or.inl ⟨h1, h2⟩⟩
  · rintro ⟨h3, ⟨h1, h2⟩ | h1⟩
    · exact ⟨Or.inr ⟨h1, h2⟩, h3⟩
    · exact ⟨Or.inl h1, h3⟩

theorem loaded_vars {isProtected : String → Bool} {t : Table} {f : Frame V} {s : Tidy V} (L : Loaded isProtected t f s) :
    ((toDataset s).vars.map Prod.fst).Nodup ∧
      ∀ x ∈ (toDataset s).vars, x.2.dims = (finalLevels t).filter (fun n => n ≠ "inputs") := by
  constructor
  · unfold toDataset
    simp only [List.map_map]
    have : (Prod.fst ∘ fun p => (p, (⟨dimName ((s.names.filter (fun n => n ≠ some "inputs")).length == 1) 0
        (s.names.filter (fun n => n ≠ some "inputs")), fun c =>
        match s.rows.find? (fun r => labelAt s.names r.1 "inputs" == some p && others s.names r.1 == c) with
        | none => none
        | some r => r.2⟩ : Arr (Option (ModelData.Scalar V))))) = (id : String → String) := rfl
    refine Eq.subst (motive := fun g => (List.map g _).Nodup) this.symm ?_
    rw [List.map_id]
    exact List.nodup_dedup _
  · intro x hx
    unfold toDataset at hx
    simp only [List.mem_map] at hx
    obtain ⟨p, -, rfl⟩ := hx
    simp only [L.names, filter_some, dimName_some]

theorem says_coords {isProtected : String → Bool} {t : Table} {f : Frame V} {s : Tidy V} (L : Loaded isProtected t f s)
    {i j : Nat} {p : String} {ρ : String → Label} {v : ModelData.Scalar V} (h : Says t f i j p ρ v) {d : String} (hd : Dim t d) :
    (d, ρ d) ∈ (toDataset s).coords := by
  obtain ⟨r, hr, -, ha⟩ := (L.holds p ρ v).mpr ⟨i, j, h⟩
  have hlen : r.1.length = (finalLevels t).length := by rw [L.wide r hr, L.names, List.length_map]
  rw [L.names] at ha
  have ho := ((row_iff hlen L.nodup L.inputs p ρ).mpr ha).2
  unfold toDataset
  simp only [List.mem_flatMap]
  refine ⟨r, hr, ?_⟩
  simp only [L.names, filter_some, dimName_some]
  rw [ho]
  have hm := (mem_dims t d).mpr hd
  rw [List.zip_map_right, List.mem_map]
  exact ⟨(d, d), by
    rw [List.mem_iff_getElem?] at hm ⊢
    obtain ⟨k, hk⟩ := hm
    exact ⟨k, zip_getElem?.mpr ⟨hk, hk⟩⟩, rfl⟩

theorem mem_labelsOf {coords : List (String × Label)} {d : String} {l : Label} :
    l ∈ labelsOf coords d ↔ (d, l) ∈ coords := by
  unfold labelsOf
  simp only [List.mem_map, List.mem_filter, beq_iff_eq]
  constructor
  · rintro ⟨⟨a, b⟩, ⟨h, rfl⟩, rfl⟩; exact h
  · intro h; exact ⟨(d, l), ⟨h, rfl⟩, rfl⟩

theorem lookup_of_mem {A : Type} : ∀ {l : List (String × A)}, (l.map Prod.fst).Nodup → ∀ {x : String × A}, x ∈ l →
    l.lookup x.1 = some x.2
  | [], _, _, h => by cases h
  | (k, a) :: l, hn, x, h => by
    simp only [List.map_cons, List.nodup_cons] at hn
    rcases List.mem_cons.mp h with h' | h'
    · subst h'; simp [List.lookup]
    · have hne : (x.1 == k) = false := by
        rw [beq_eq_false_iff_ne]
        intro he
        exact hn.1 (List.mem_map.mpr ⟨x, h', he⟩)
      rw [List.lookup, hne]
      exact lookup_of_mem hn.2 h'

theorem mem_of_lookup' {A : Type} : ∀ {l : List (String × A)} {p : String} {a : A}, l.lookup p = some a → (p, a) ∈ l
  | [], _, _, h => by cases h
  | (k, b) :: l, p, a, h => by
    rw [List.lookup] at h
    cases hb : (p == k) with
    | true =>
      rw [hb] at h
      have : p = k := by simpa using hb
      cases h; subst this
      exact List.mem_cons_self ..
    | false =>
      rw [hb] at h
      exact List.mem_cons_of_mem _ (mem_of_lookup' h)

/-- Some value of an input of the table, with two labels fixed. -/
theorem anyCell_says {isProtected : String → Bool} {t : Table} {f : Frame V} {s : Tidy V} (L : Loaded isProtected t f s)
    {d1 d2 : String} (hne : d1 ≠ d2) (h1 : Dim t d1) (h2 : Dim t d2) (l1 l2 : Label) {p : String}
    {a : Arr (Option (ModelData.Scalar V))} (hp : (toDataset s).vars.lookup p = some a) :
    anyCell (fun d => if d = d1 then [l1] else if d = d2 then [l2] else labelsOf (toDataset s).coords d)
        (map Option.isSome a) = true ↔
      ∃ i j ρ v, Says t f i j p ρ v ∧ ρ d1 = l1 ∧ ρ d2 = l2 := by
  have hdims : a.dims = (finalLevels t).filter (fun n => n ≠ "inputs") := (loaded_vars L).2 _ (mem_of_lookup' hp)
  rw [Clean.anyCell_iff']
  constructor
  · rintro ⟨σ, hσ, hv⟩
    have hv' : (a.at σ).isSome = true := hv
    obtain ⟨v, hv⟩ := Option.isSome_iff_exists.mp hv'
    have hval : valueOf (toDataset s) p σ = some v := by
      unfold valueOf; rw [hp]; exact hv
    obtain ⟨i, j, hs⟩ := (loaded_value L p σ v).mp hval
    refine ⟨i, j, σ, v, hs, ?_, ?_⟩
    · have := hσ d1 (show d1 ∈ a.dims by rw [hdims]; exact (mem_dims t d1).mpr h1)
      simpa using this
    · have := hσ d2 (show d2 ∈ a.dims by rw [hdims]; exact (mem_dims t d2).mpr h2)
      simpa [hne.symm] using this
  · rintro ⟨i, j, ρ, v, hs, e1, e2⟩
    have hval := (loaded_value L p ρ v).mpr ⟨i, j, hs⟩
    unfold valueOf at hval
    rw [hp] at hval
    refine ⟨ρ, ?_, ?_⟩
    · intro d hd
      have hd' : d ∈ a.dims := hd
      rw [hdims, mem_dims] at hd'
      by_cases k1 : d = d1
      · subst k1; simp [e1]
      · by_cases k2 : d = d2
        · subst k2; simp [k1, e2]
        · simp only [k1, k2, if_false]
          exact mem_labelsOf.mpr (says_coords L hs hd')
    · show (a.at ρ).isSome = true
      simp only at hval
      rw [hval]; rfl

/-! ### Clashes -/

theorem process_nodup {t : Table} {s s' : Tidy V} (hw : Wide s) (h : process t s = .ok s')
    (hd : (s'.rows.map Prod.fst).Nodup) :
    s.rows.Pairwise (fun x y => selected t.select s.names x.1 = true → selected t.select s.names y.1 = true →
      keptLabels t.drop s.names x.1 ≠ keptLabels t.drop s.names y.1) := by
  have h1 := addDims_nodup (process_ok hw h).1 hd
  simp only [dropped, List.map_map] at h1
  rw [List.Nodup, List.pairwise_map, List.pairwise_filter] at h1
  exact h1

theorem says_clash {isProtected : String → Bool} {t : Table} {f : Frame V} {ds : DS V} (hf : Rect f) (hn : Named t f)
    (h : load isProtected t f = .ok ds) {i j i' j' : Nat} {p : String} {ρ : String → Label} {v v' : ModelData.Scalar V}
    (h1 : Says t f i j p ρ v) (h2 : Says t f i' j' p ρ v') : i = i' ∧ j = j' := by
  obtain ⟨rs, cs, s, s', hr, hc, k1, k2, k3, -⟩ := load_ok h
  have hw := tidy_wide hf hn hr hc k1
  obtain ⟨e1, keep, e2, e3⟩ := toTidy_ok hn hr hc k1
  have hp := process_nodup hw k2 (check_ok k3).2.1
  rw [e2, List.pairwise_map, List.pairwise_filter, e1] at hp
  by_contra hne
  obtain ⟨⟨r, c, c1, f1⟩, -⟩ := h1
  obtain ⟨⟨r', c', c2, f2⟩, -⟩ := h2
  have hpair := entries_pairwise (f := f) (by
    intro x y hxy a b c d he
    exact hxy b a d c he.symm) hp c1 c2 hne
  have al1 := along_iff (c := c) (cell_lengths hf hr hc c1).1
  have al2 := along_iff (c := c') (cell_lengths hf hr hc c2).1
  have len1 := (cell_lengths hf hr hc c1)
  have len2 := (cell_lengths hf hr hc c2)
  have ll1 : (labelsAt t r c).length = ((levels t).map some).length := by
    rw [List.length_map]; exact labelsAt_length len1.1 len1.2
  have ll2 : (labelsAt t r' c').length = ((levels t).map some).length := by
    rw [List.length_map]; exact labelsAt_length len2.1 len2.2
  refine hpair ((e3 _).mpr (Or.inl (by simp))) ((e3 _).mpr (Or.inl (by simp))) ?_ ?_ ?_
  · exact (selected_iff hn.select _ _).mpr (fun d l hm => (f1 d l ((al1 d l).mp hm)).1)
  · exact (selected_iff hn.select _ _).mpr (fun d l hm => (f2 d l ((al2 d l).mp hm)).1)
  · have a1 := (kept_agrees t.drop _ _ ll1 (target p ρ)).mpr (fun d l hm => (f1 d l ((al1 d l).mp hm)).2)
    have a2 := (kept_agrees t.drop _ _ ll2 (target p ρ)).mpr (fun d l hm => (f2 d l ((al2 d l).mp hm)).2)
    have n1 := filter_length (keepLevel t.drop) _ _ ll1
    have n2 := filter_length (keepLevel t.drop) _ _ ll2
    rw [keep_levels] at a1 a2 n1 n2
    rw [List.length_map (f := some)] at n1 n2
    exact ((agrees_map n1 _).mp a1).trans ((agrees_map n2 _).mp a2).symm

/-! ### What tables say about technologies and nodes -/

theorem nodeTechs_mem {isProtected : String → Bool} {t : Table} {f : Frame V} {s : Tidy V} (L : Loaded isProtected t f s)
    (n l : Label) :
    l ∈ techsAt (toDataset s) n ↔
      Dim t "nodes" ∧ Dim t "techs" ∧ ∃ i j p ρ v, Says t f i j p ρ v ∧ ρ "nodes" = n ∧ ρ "techs" = l := by
  unfold techsAt
  rw [List.mem_filter, List.mem_dedup, List.any_eq_true]
  constructor
  · rintro ⟨-, ⟨p, a⟩, hx, hb⟩
    simp only [Bool.and_eq_true, List.contains_eq_mem, decide_eq_true_eq] at hb
    have hdims := (loaded_vars L).2 _ hx
    simp only at hdims
    rw [hdims, mem_dims, mem_dims] at hb
    have hlook := lookup_of_mem (loaded_vars L).1 hx
    obtain ⟨i, j, ρ, v, hs, e1, e2⟩ := (anyCell_says L (by decide) hb.1.1 hb.1.2 n l hlook).mp hb.2
    exact ⟨hb.1.1, hb.1.2, i, j, p, ρ, v, hs, e1, e2⟩
  · rintro ⟨d1, d2, i, j, p, ρ, v, hs, e1, e2⟩
    refine ⟨?_, ?_⟩
    · rw [mem_labelsOf, ← e2]
      exact says_coords L hs d2
    · have hval := (loaded_value L p ρ v).mpr ⟨i, j, hs⟩
      unfold valueOf at hval
      cases hl : (toDataset s).vars.lookup p with
      | none => rw [hl] at hval; cases hval
      | some a =>
        have hm := mem_of_lookup' hl
        refine ⟨(p, a), hm, ?_⟩
        have hdims := (loaded_vars L).2 _ hm
        simp only at hdims
        simp only [Bool.and_eq_true, List.contains_eq_mem, decide_eq_true_eq]
        rw [hdims, mem_dims, mem_dims]
        exact ⟨⟨d1, d2⟩, (anyCell_says L (by decide) d1 d2 n l hl).mpr ⟨i, j, ρ, v, hs, e1, e2⟩⟩

theorem checkTechs_ok (link : Label → Option Bool) (ts : List Label) :
    checkTechs link ts = .ok () ↔ ∀ t ∈ ts, link t = some false := by
  induction ts with
  | nil => simp [checkTechs]
  | cons t ts ih =>
    unfold checkTechs
    rcases h : link t with _ | (_ | _)
    · simp [h]
    · simp [h, ih]
    · simp [h]

theorem nodeTechs_ok {ds : DS V} {link : Label → Option Bool} {n : Label} {ts : List Label} :
    nodeTechs ds link n = .ok ts ↔ ts = techsAt ds n ∧ ∀ t ∈ techsAt ds n, link t = some false := by
  rw [← checkTechs_ok]
  unfold nodeTechs
  rcases h : checkTechs link (techsAt ds n) with e | u
  · simp
  · simp [eq_comm]

end Tables
end Calliope
