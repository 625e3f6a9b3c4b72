import Verif.Proofs.Tables4

/-!
# Proofs about loading data tables: the tables that load are those accepted
-/

namespace Calliope
namespace Tables

open Grid ModelData

variable {V : Type}

theorem kept_eq (drop : List String) : ∀ {ns : List String} {a b : List Label}, ns.Nodup → a.length = ns.length →
    b.length = ns.length →
    (keptLabels drop (ns.map some) a = keptLabels drop (ns.map some) b ↔
      ∀ d l l', d ∉ drop → (d, l) ∈ ns.zip a → (d, l') ∈ ns.zip b → l = l')
  | [], [], [], _, _, _ => by simp [keptLabels]
  | [], _ :: _, _, _, h, _ => by simp at h
  | [], [], _ :: _, _, _, h => by simp at h
  | _ :: _, [], _, _, h, _ => by simp at h
  | _ :: _, _ :: _, [], _, _, h => by simp at h
  | n :: ns, x :: a, y :: b, hn, ha, hb => by
    have ih := kept_eq drop (ns := ns) (a := a) (b := b) (List.nodup_cons.mp hn).2 (by simpa using ha) (by simpa using hb)
    have hrest : (∀ d l l', d ∉ drop → (d, l) ∈ (n :: ns).zip (x :: a) → (d, l') ∈ (n :: ns).zip (y :: b) → l = l') ↔
        (n ∉ drop → x = y) ∧ ∀ d l l', d ∉ drop → (d, l) ∈ ns.zip a → (d, l') ∈ ns.zip b → l = l' := by
      constructor
      · intro h
        exact ⟨fun hd => h n x y hd (List.mem_cons_self ..) (List.mem_cons_self ..),
          fun d l l' hd h1 h2 => h d l l' hd (List.mem_cons_of_mem _ h1) (List.mem_cons_of_mem _ h2)⟩
      · rintro ⟨h0, h⟩ d l l' hd h1 h2
        rw [List.zip_cons_cons, List.mem_cons] at h1 h2
        rcases h1 with h1 | h1 <;> rcases h2 with h2 | h2
        · cases h1; cases h2; exact h0 hd
        · cases h1; exact absurd (List.of_mem_zip h2).1 (List.nodup_cons.mp hn).1
        · cases h2; exact absurd (List.of_mem_zip h1).1 (List.nodup_cons.mp hn).1
        · exact h d l l' hd h1 h2
    rw [hrest, ← ih]
    by_cases hd : n ∈ drop
    · have hk : keepLevel drop (some n) = false := by
        rw [← Bool.not_eq_true, keepLevel_some]; exact fun h => h hd
      simp [keptLabels, hk, hd]
    · have hk : keepLevel drop (some n) = true := (keepLevel_some _ _).mpr hd
      simp [keptLabels, hk, hd]

/-- What is known after stacking. -/
structure Stacked (t : Table) (f : Frame V) (s : Tidy V) : Prop where
  names : s.names = (levels t).map some
  wide : Wide s
  lengths : ∀ i j r c v, Cell f i j r c v → (∀ ns, t.rows = some ns → r.length = ns.length) ∧
    (labelsAt t r c).length = (levels t).length
  rows : ∃ keep : List Label × List Label × Option (ModelData.Scalar V) → Bool,
      s.rows = ((entries f).filter keep).map (fun x => (labelsAt t x.1 x.2.1, x.2.2)) ∧ ∀ x, keep x = true ↔ Counts t x.2.2

theorem stacked {t : Table} {f : Frame V} (hf : Rect f) (hn : Named t f) {rs cs : List (Option String)} {s : Tidy V}
    (hr : axisNames t.rename t.rows f.rowNames = .ok rs) (hc : axisNames t.rename t.columns f.colNames = .ok cs)
    (h : toTidy t f rs cs = .ok s) : Stacked t f s := by
  obtain ⟨h1, h2⟩ := toTidy_ok hn hr hc h
  exact ⟨h1, tidy_wide hf hn hr hc h, fun i j r c v hcell =>
    ⟨(cell_lengths hf hr hc hcell).1, labelsAt_length (cell_lengths hf hr hc hcell).1 (cell_lengths hf hr hc hcell).2⟩, h2⟩

theorem Stacked.along {t : Table} {f : Frame V} {s : Tidy V} (S : Stacked t f s) {i j : Nat} {r c : List Label}
    {v : Option (ModelData.Scalar V)} (h : Cell f i j r c v) (d : String) (l : Label) :
    (d, l) ∈ (levels t).zip (labelsAt t r c) ↔ Along t r c d l := by
  rw [← mem_zip_some]
  exact along_iff (S.lengths i j r c v h).1 d l

theorem Stacked.mem {t : Table} {f : Frame V} {s : Tidy V} (S : Stacked t f s) (x : List Label × Option (ModelData.Scalar V)) :
    x ∈ s.rows ↔ ∃ i j r c, Cell f i j r c x.2 ∧ Counts t x.2 ∧ x.1 = labelsAt t r c := by
  obtain ⟨keep, h1, h2⟩ := S.rows
  rw [h1, List.mem_map]
  constructor
  · rintro ⟨⟨r, c, v⟩, hm, rfl⟩
    rw [List.mem_filter, h2] at hm
    obtain ⟨i, j, hcell⟩ := mem_entries.mp hm.1
    exact ⟨i, j, r, c, hcell, hm.2, rfl⟩
  · rintro ⟨i, j, r, c, hcell, hcnt, hx⟩
    refine ⟨(r, c, x.2), List.mem_filter.mpr ⟨mem_entries.mpr ⟨i, j, hcell⟩, (h2 _).mpr hcnt⟩, ?_⟩
    rw [← hx]

/-- The rows taken by the selection. -/
def takenRows (t : Table) (s : Tidy V) : Tidy V := ⟨s.names, s.rows.filter (fun r => selected t.select s.names r.1)⟩

theorem Stacked.taken {t : Table} {f : Frame V} {s : Tidy V} (S : Stacked t f s) (hs : (t.select.map Prod.fst).Nodup)
    {i j : Nat} {r c : List Label} {v : Option (ModelData.Scalar V)} (h : Cell f i j r c v) :
    selected t.select s.names (labelsAt t r c) = true ↔ ∀ d l, Along t r c d l → ∀ ls, (d, ls) ∈ t.select → l ∈ ls := by
  rw [selected_iff hs, S.names]
  simp only [mem_zip_some, S.along h]

theorem Stacked.nonempty {t : Table} {f : Frame V} {s : Tidy V} (S : Stacked t f s) (hs : (t.select.map Prod.fst).Nodup) :
    (takenRows t s).rows ≠ [] ↔ ∃ i j r c, Taken t f i j r c := by
  constructor
  · intro h
    obtain ⟨x, hx⟩ := List.exists_mem_of_ne_nil _ h
    obtain ⟨hm, hsel⟩ := List.mem_filter.mp hx
    obtain ⟨i, j, r, c, hcell, hcnt, he⟩ := (S.mem x).mp hm
    refine ⟨i, j, r, c, ⟨x.2, hcell, hcnt⟩, ?_⟩
    rw [he] at hsel
    exact (S.taken hs hcell).mp hsel
  · rintro ⟨i, j, r, c, ⟨v, hcell, hcnt⟩, hsel⟩
    apply List.ne_nil_of_mem (a := (labelsAt t r c, v))
    exact List.mem_filter.mpr ⟨(S.mem _).mpr ⟨i, j, r, c, hcell, hcnt, rfl⟩, (S.taken hs hcell).mpr hsel⟩

theorem Stacked.clash {t : Table} {f : Frame V} {s : Tidy V} (S : Stacked t f s) (hs : (t.select.map Prod.fst).Nodup)
    (hl : (levels t).Nodup) :
    ((dropped t.drop (takenRows t s)).rows.map Prod.fst).Nodup ↔
      ∀ i j r c i' j' r' c', Taken t f i j r c → Taken t f i' j' r' c' →
        (∀ d l l', d ∉ t.drop → Along t r c d l → Along t r' c' d l' → l = l') → i = i' ∧ j = j' := by
  obtain ⟨keep, h1, h2⟩ := S.rows
  have e : ((dropped t.drop (takenRows t s)).rows.map Prod.fst).Nodup ↔
      (entries f).Pairwise (fun x y => keep x = true → keep y = true →
        selected t.select s.names (labelsAt t x.1 x.2.1) = true → selected t.select s.names (labelsAt t y.1 y.2.1) = true →
        keptLabels t.drop s.names (labelsAt t x.1 x.2.1) ≠ keptLabels t.drop s.names (labelsAt t y.1 y.2.1)) := by
    simp only [dropped, takenRows, List.map_map]
    rw [List.Nodup, List.pairwise_map, List.pairwise_filter, h1, List.pairwise_map, List.pairwise_filter]
    rfl
  rw [e]
  have hkept : ∀ {i j r c v i' j' r' c' v'}, Cell f i j r c v → Cell f i' j' r' c' v' →
      (keptLabels t.drop s.names (labelsAt t r c) = keptLabels t.drop s.names (labelsAt t r' c') ↔
        ∀ d l l', d ∉ t.drop → Along t r c d l → Along t r' c' d l' → l = l') := by
    intro i j r c v i' j' r' c' v' c1 c2
    rw [S.names, kept_eq t.drop hl (S.lengths _ _ _ _ _ c1).2 (S.lengths _ _ _ _ _ c2).2]
    simp only [S.along c1, S.along c2]
  constructor
  · rintro h i j r c i' j' r' c' ⟨⟨v, c1, n1⟩, s1⟩ ⟨⟨v', c2, n2⟩, s2⟩ hlab
    by_contra hne
    refine entries_pairwise ?_ h c1 c2 hne ((h2 _).mpr n1) ((h2 _).mpr n2) ((S.taken hs c1).mpr s1) ((S.taken hs c2).mpr s2)
      ((hkept c1 c2).mpr hlab)
    intro x y hxy a b c d he
    exact hxy b a d c he.symm
  · intro h
    apply entries_pairwise_of
    intro i j i' j' r c v r' c' v' c1 c2 hne k1 k2 s1 s2 hk
    exact hne (h i j r c i' j' r' c' ⟨⟨v, c1, (h2 _).mp k1⟩, (S.taken hs c1).mp s1⟩
      ⟨⟨v', c2, (h2 _).mp k2⟩, (S.taken hs c2).mp s2⟩ ((hkept c1 c2).mp hk))

/-! ### Protected inputs -/

theorem protected_iff {isProtected : String → Bool} {s : Tidy V} {ns : List String} (hnames : s.names = ns.map some)
    (hn : ns.Nodup) (hi : "inputs" ∈ ns) (hw : Wide s) :
    (∀ r ∈ s.rows, ∀ p, labelAt s.names r.1 "inputs" = some p → isProtected p = false) ↔
      ∀ e v, Holds s e v → isProtected (e "inputs") = false := by
  have hlen : ∀ r ∈ s.rows, r.1.length = ns.length := by
    intro r hr; rw [hw r hr, hnames, List.length_map]
  constructor
  · rintro h e v ⟨r, hr, -, ha⟩
    obtain ⟨q, hq⟩ := labelAt_isSome (hlen r hr) hn hi
    have hz := (labelAt_map _ _ (hlen r hr) hn).mp hq
    rw [hnames] at ha
    have := ha _ _ (mem_zip_some.mpr hz)
    rw [← this]
    exact h r hr q (by rw [hnames]; exact hq)
  · intro h r hr p hp
    have := h (fun d => (labelAt s.names r.1 d).getD "") r.2 ⟨r, hr, rfl, by
      intro d l hm
      rw [hnames] at hm ⊢
      show l = (labelAt (ns.map some) r.1 d).getD ""
      rw [(labelAt_map d l (hlen r hr) hn).mpr (mem_zip_some.mp hm)]
      rfl⟩
    simpa [hp] using this

/-- Labels for the added dimensions. -/
theorem exists_labels {add : List (String × List Label)} (hn : (add.map Prod.fst).Nodup)
    (hne : ∀ d items, (d, items) ∈ add → items ≠ []) (e0 : String → Label) :
    ∃ e : String → Label, (∀ d items, (d, items) ∈ add → e d ∈ items) ∧ ∀ d, d ∉ add.map Prod.fst → e d = e0 d := by
  induction add with
  | nil => exact ⟨e0, by simp, fun _ _ => rfl⟩
  | cons x rest ih =>
    obtain ⟨n, items⟩ := x
    simp only [List.map_cons, List.nodup_cons] at hn
    obtain ⟨e, h1, h2⟩ := ih hn.2 (fun d its hm => hne d its (List.mem_cons_of_mem _ hm))
    obtain ⟨l, hl⟩ := List.exists_mem_of_ne_nil _ (hne n items (List.mem_cons_self ..))
    refine ⟨fun d => if d = n then l else e d, ?_, ?_⟩
    · intro d its hm
      rcases List.mem_cons.mp hm with hm' | hm'
      · cases hm'; simpa using hl
      · have : d ≠ n := by
          rintro rfl
          exact hn.1 (List.mem_map.mpr ⟨(d, its), hm', rfl⟩)
        simpa [this] using h1 d its hm'
    · intro d hd
      simp only [List.map_cons, List.mem_cons, not_or] at hd
      simpa [hd.1] using h2 d hd.2

/-- The rows of the processed table, in terms of cells. -/
theorem Stacked.holds {t : Table} {f : Frame V} {s s' : Tidy V} (S : Stacked t f s) (hs : (t.select.map Prod.fst).Nodup)
    (hp : process t s = .ok s') (e : String → Label) :
    (∃ v, Holds s' e v) ↔
      (∃ i j r c, Taken t f i j r c ∧ ∀ d l, Along t r c d l → d ∉ t.drop → l = e d) ∧
        ∀ d items, (d, items) ∈ t.addDims → e d ∈ items := by
  simp only [process_holds hs S.wide hp]
  constructor
  · rintro ⟨v, ⟨x, hx, hv, ha⟩, h3⟩
    refine ⟨?_, h3⟩
    obtain ⟨i, j, r, c, hcell, hcnt, he⟩ := (S.mem x).mp hx
    rw [he, S.names] at ha
    simp only [mem_zip_some, S.along hcell] at ha
    exact ⟨i, j, r, c, ⟨⟨x.2, hcell, hcnt⟩, fun d l hal => (ha d l hal).1⟩, fun d l hal => (ha d l hal).2⟩
  · rintro ⟨⟨i, j, r, c, ⟨⟨v, hcell, hcnt⟩, hsel⟩, hlab⟩, h3⟩
    refine ⟨v, ⟨(labelsAt t r c, v), (S.mem _).mpr ⟨i, j, r, c, hcell, hcnt, rfl⟩, rfl, ?_⟩, h3⟩
    rw [S.names]
    simp only [mem_zip_some, S.along hcell]
    exact fun d l hal => ⟨hsel d l hal, hlab d l hal⟩

theorem mem_levels (t : Table) (d : String) : d ∈ levels t ↔ OnAxis t d := List.mem_append

theorem along_onAxis {t : Table} {r c : List Label} {d : String} {l : Label} (h : Along t r c d l) : OnAxis t d := by
  rcases h with h | h
  · exact Or.inl (List.of_mem_zip h).1
  · exact Or.inr (List.of_mem_zip h).1

theorem mem_final (t : Table) (d : String) :
    d ∈ finalLevels t ↔ (OnAxis t d ∧ d ∉ t.drop) ∨ ∃ items, (d, items) ∈ t.addDims := by
  unfold finalLevels
  simp only [List.mem_append, List.mem_reverse, List.mem_map, Prod.exists, exists_and_right, exists_eq_right,
    List.mem_filter, Bool.not_eq_true', List.contains_eq_mem, decide_eq_false_iff_not, mem_levels]
  exact or_comm

theorem Stacked.allowed {isProtected : String → Bool} {t : Table} {f : Frame V} {s s' : Tidy V} (S : Stacked t f s)
    (hs : (t.select.map Prod.fst).Nodup) (hp : process t s = .ok s') (hl : (levels t).Nodup)
    (ha : (t.addDims.map Prod.fst).Nodup) (hnew : ∀ d items, (d, items) ∈ t.addDims → OnAxis t d → d ∈ t.drop)
    (hne : ∀ d items, (d, items) ∈ t.addDims → items ≠ []) (hi : "inputs" ∈ finalLevels t) :
    (∀ e v, Holds s' e v → isProtected (e "inputs") = false) ↔
      ∀ i j r c, Taken t f i j r c →
        (∀ l, Along t r c "inputs" l → "inputs" ∉ t.drop → isProtected l = false) ∧
          ∀ items, ("inputs", items) ∈ t.addDims → ∀ l ∈ items, isProtected l = false := by
  constructor
  · intro h i j r c htk
    obtain ⟨⟨v, hcell, -⟩, -⟩ := id htk
    -- the labels of the cell
    have hlen := S.lengths i j r c v hcell
    have hcellab : ∀ d l, Along t r c d l → (labelAt ((levels t).map some) (labelsAt t r c) d).getD "" = l := by
      intro d l hal
      rw [(labelAt_map d l hlen.2 hl).mpr ((S.along hcell d l).mpr hal)]
      rfl
    obtain ⟨e, h1, h2⟩ := exists_labels ha hne (fun d => (labelAt ((levels t).map some) (labelsAt t r c) d).getD "")
    have hfit : ∀ d l, Along t r c d l → d ∉ t.drop → l = e d := by
      intro d l hal hd
      rw [h2 d, hcellab d l hal]
      intro hm
      obtain ⟨⟨d', its⟩, hm', rfl⟩ := List.mem_map.mp hm
      exact hd (hnew _ its hm' (along_onAxis hal))
    constructor
    · intro l hal hd
      obtain ⟨v', hv'⟩ := (S.holds hs hp e).mpr ⟨⟨i, j, r, c, htk, hfit⟩, h1⟩
      rw [hfit _ l hal hd]
      exact h e v' hv'
    · intro items hm l hlm
      have hax : ∀ l', Along t r c "inputs" l' → "inputs" ∈ t.drop := fun l' hal => hnew _ items hm (along_onAxis hal)
      obtain ⟨v', hv'⟩ := (S.holds hs hp (fun d => if d = "inputs" then l else e d)).mpr ⟨⟨i, j, r, c, htk, by
          intro d l' hal hd
          by_cases hdi : d = "inputs"
          · subst hdi; exact absurd (hax l' hal) hd
          · simpa [hdi] using hfit d l' hal hd⟩, by
          intro d its hm'
          by_cases hdi : d = "inputs"
          · subst hdi
            have e1 := lookup_of_mem ha hm
            have e2 := lookup_of_mem ha hm'
            simp only at e1 e2
            rw [e1] at e2
            cases e2
            simpa using hlm
          · simpa [hdi] using h1 d its hm'⟩
      simpa using h _ v' hv'
  · intro h e v hv
    obtain ⟨⟨i, j, r, c, htk, hlab⟩, h3⟩ := (S.holds hs hp e).mp ⟨v, hv⟩
    rcases (mem_final t "inputs").mp hi with ⟨hax, hd⟩ | ⟨items, hm⟩
    · obtain ⟨⟨v, hcell, -⟩, -⟩ := id htk
      obtain ⟨q, hq⟩ := labelAt_isSome (S.lengths i j r c v hcell).2 hl ((mem_levels t _).mpr hax)
      have hal := (S.along hcell _ _).mp ((labelAt_map _ _ (S.lengths i j r c v hcell).2 hl).mp hq)
      rw [← hlab _ _ hal hd]
      exact (h i j r c htk).1 q hal hd
    · exact (h i j r c htk).2 items hm _ (h3 _ _ hm)

theorem check_iff {isProtected : String → Bool} {s : Tidy V} :
    check isProtected s = .ok () ↔ some "inputs" ∈ s.names ∧ (s.rows.map Prod.fst).Nodup ∧ s.names.Nodup ∧
      ∀ r ∈ s.rows, ∀ p, labelAt s.names r.1 "inputs" = some p → isProtected p = false := by
  constructor
  · exact check_ok
  · rintro ⟨h1, h2, h3, h4⟩
    unfold check
    rw [if_neg (by simpa using h1), if_neg (by simpa [duplicated] using h2), if_neg (by simpa using h3), if_neg]
    simp only [List.any_eq_true, not_exists, not_and]
    intro r hr
    cases hp : labelAt s.names r.1 "inputs" with
    | none => simp
    | some p => simpa using h4 r hr p hp

theorem final_nodup (t : Table) : (finalLevels t).Nodup ↔
    (t.addDims.map Prod.fst).Nodup ∧ ((levels t).filter (fun d => !t.drop.contains d)).Nodup ∧
      ∀ d items, (d, items) ∈ t.addDims → OnAxis t d → d ∈ t.drop := by
  unfold finalLevels
  rw [List.nodup_append, List.nodup_reverse]
  refine and_congr Iff.rfl (and_congr Iff.rfl ?_)
  constructor
  · intro h d items hm hax
    by_contra hd
    exact h d (List.mem_reverse.mpr (List.mem_map.mpr ⟨_, hm, rfl⟩)) d
      (List.mem_filter.mpr ⟨(mem_levels t d).mpr hax, by simpa using hd⟩) rfl
  · rintro h a ha b hb rfl
    obtain ⟨⟨d, items⟩, hm, rfl⟩ := List.mem_map.mp (List.mem_reverse.mp ha)
    obtain ⟨h1, h2⟩ := List.mem_filter.mp hb
    exact absurd (h _ items hm ((mem_levels t _).mp h1)) (by simpa using h2)

/-- When the steps succeed. -/
theorem process_parts {t : Table} {s : Tidy V} :
    (∃ s', process t s = .ok s') ↔ (∃ s1, selectRows t.select s = .ok s1) ∧
      (t.drop ≠ [] → ∃ s2, dropLevels t.drop (takenRows t s) = .ok s2) ∧
      ∀ d items, (d, items) ∈ t.addDims → items ≠ [] := by
  unfold process
  cases h1 : selectRows t.select s with
  | error e => simp
  | ok s1 =>
    have e1 : s1 = takenRows t s := selectRows_ok h1
    subst e1
    simp only [Except.ok.injEq, exists_eq', true_and]
    cases hd : t.drop with
    | nil => simp only [List.isEmpty_nil, if_true, ne_eq, not_true_eq_false, false_imp_iff, true_and]; exact addDims_iff _ _
    | cons d ds =>
      simp only [List.isEmpty_cons, Bool.false_eq_true, if_false, ne_eq, reduceCtorEq, not_false_eq_true, true_imp_iff]
      cases h2 : dropLevels (d :: ds) (takenRows t s) with
      | error e => simp
      | ok s2 => simp only [Except.ok.injEq, exists_eq', true_and]; exact addDims_iff _ _

theorem load_iff {isProtected : String → Bool} {t : Table} {f : Frame V} :
    (∃ ds, load isProtected t f = .ok ds) ↔
      ∃ rs cs s s', axisNames t.rename t.rows f.rowNames = .ok rs ∧ axisNames t.rename t.columns f.colNames = .ok cs ∧
        toTidy t f rs cs = .ok s ∧ process t s = .ok s' ∧ check isProtected s' = .ok () := by
  constructor
  · rintro ⟨ds, h⟩
    obtain ⟨rs, cs, s, s', h1, h2, h3, h4, h5, -⟩ := load_ok h
    exact ⟨rs, cs, s, s', h1, h2, h3, h4, h5⟩
  · rintro ⟨rs, cs, s, s', h1, h2, h3, h4, h5⟩
    refine ⟨toDataset s', ?_⟩
    unfold load
    simp only [h1, h2, h3, h4, h5]

theorem count_drop {t : Table} (h : (levels t).Nodup) (hd : ∀ d ∈ t.drop, OnAxis t d) :
    ∀ d ∈ t.drop, (levels t).count d = 1 := fun d hm => List.count_eq_one_of_mem h ((mem_levels t d).mpr (hd d hm))

theorem levels_nodup {t : Table} (h1 : ((levels t).filter (fun d => !t.drop.contains d)).Nodup)
    (h2 : ∀ d ∈ t.drop, (levels t).count d = 1) : (levels t).Nodup := by
  rw [List.nodup_iff_count_le_one]
  intro d
  by_cases hd : d ∈ t.drop
  · exact Nat.le_of_eq (h2 d hd)
  · have := List.nodup_iff_count_le_one.mp h1 d
    rwa [List.count_filter (by simpa using hd)] at this

/-- The tables that load are those that are accepted. -/
theorem accepts_iff {isProtected : String → Bool} {t : Table} {f : Frame V} (hf : Rect f) (hn : Named t f) :
    (∃ ds, load isProtected t f = .ok ds) ↔ Accepts isProtected t f := by
  rw [load_iff]
  constructor
  · rintro ⟨rs, cs, s, s', hr, hc, h1, h2, h3⟩
    have S := stacked hf hn hr hc h1
    obtain ⟨k1, k2, k3, k4⟩ := check_iff.mp h3
    obtain ⟨p1, p2, p3⟩ := process_parts.mp ⟨s', h2⟩
    have hnames := final_names hf hn hr hc h1 h2
    rw [hnames] at k1 k3
    have hfin : (finalLevels t).Nodup := List.Nodup.of_map _ k3
    obtain ⟨n1, n2, n3⟩ := (final_nodup t).mp hfin
    have hin : "inputs" ∈ finalLevels t := by simpa using k1
    have hdrop : ∀ d ∈ t.drop, (levels t).count d = 1 := by
      intro d hd
      exact ((dropLevels_iff (s := takenRows t s) S.names).mp (p2 (List.ne_nil_of_mem hd))).1 d hd
    have hl := levels_nodup n2 hdrop
    have hadd := (process_ok S.wide h2).1
    have hnd := (addDims_nodup_iff hadd).mp k2
    have hwide' := process_wide S.wide h2
    refine ⟨(axis_iff hn.rename _ _).mp ⟨_, hr⟩, (axis_iff hn.rename _ _).mp ⟨_, hc⟩, (toTidy_iff hn rs cs).mp ⟨_, h1⟩, hl, n1,
      n3, ?_, ?_, ?_, p3, (mem_final t _).mp hin, (S.clash hn.select hl).mp hnd.1, ?_, ?_⟩
    · intro d ls l hm hax hlm
      obtain ⟨x, hx, hz⟩ := (selectRows_iff hn.select S.names hl).mp p1 d ls l hm ((mem_levels t d).mpr hax) hlm
      obtain ⟨i, j, r, c, hcell, hcnt, he⟩ := (S.mem x).mp hx
      rw [he, S.names, mem_zip_some, S.along hcell] at hz
      exact ⟨i, j, r, c, x.2, hcell, hcnt, hz⟩
    · intro d hd
      rw [← mem_levels]
      exact List.count_pos_iff.mp (by rw [hdrop d hd]; exact Nat.one_pos)
    · intro hd
      obtain ⟨d, h5, h6⟩ := ((dropLevels_iff (s := takenRows t s) S.names).mp (p2 hd)).2
      exact ⟨d, (mem_levels t d).mp h5, h6⟩
    · intro i j r c htk
      apply hnd.2
      have := (S.nonempty hn.select).mpr ⟨i, j, r, c, htk⟩
      intro hc'
      apply this
      simpa [dropped, takenRows] using hc'
    · exact (S.allowed hn.select h2 hl n1 n3 p3 hin).mp ((protected_iff hnames hfin hin hwide').mp k4)
  · intro A
    obtain ⟨rs, hr⟩ := (axis_iff hn.rename _ _).mpr A.rows
    obtain ⟨cs, hc⟩ := (axis_iff hn.rename _ _).mpr A.columns
    obtain ⟨s, h1⟩ := (toTidy_iff hn rs cs).mpr A.axes
    have S := stacked hf hn hr hc h1
    have hl : (levels t).Nodup := A.once
    have hfin : (finalLevels t).Nodup := (final_nodup t).mpr ⟨A.addedOnce, hl.filter _, A.addedNew⟩
    have hin : "inputs" ∈ finalLevels t := (mem_final t _).mpr A.inputs
    obtain ⟨s', h2⟩ : ∃ s', process t s = .ok s' := by
      refine process_parts.mpr ⟨(selectRows_iff hn.select S.names hl).mpr ?_, ?_, A.items⟩
      · intro d ls l hm hd hlm
        obtain ⟨i, j, r, c, v, hcell, hcnt, hal⟩ := A.select d ls l hm ((mem_levels t d).mp hd) hlm
        refine ⟨(labelsAt t r c, v), (S.mem _).mpr ⟨i, j, r, c, hcell, hcnt, rfl⟩, ?_⟩
        rw [S.names, mem_zip_some, S.along hcell]
        exact hal
      · intro hd
        obtain ⟨d, h5, h6⟩ := A.left hd
        exact (dropLevels_iff (s := takenRows t s) S.names).mpr ⟨count_drop hl A.drop, d, (mem_levels t d).mpr h5, h6⟩
    have hnames := final_names hf hn hr hc h1 h2
    refine ⟨rs, cs, s, s', hr, hc, h1, h2, check_iff.mpr ⟨?_, ?_, ?_, ?_⟩⟩
    · rw [hnames]; simpa using hin
    · refine (addDims_nodup_iff (process_ok S.wide h2).1).mpr ⟨(S.clash hn.select hl).mpr A.clash, ?_⟩
      intro hne
      have : (takenRows t s).rows ≠ [] := by
        intro hc'
        apply hne
        have : s.rows.filter (fun r => selected t.select s.names r.1) = [] := hc'
        simp [dropped, this]
      obtain ⟨i, j, r, c, htk⟩ := (S.nonempty hn.select).mp this
      exact A.itemsOnce i j r c htk
    · rw [hnames]; exact hfin.map (fun a b h => Option.some.inj h)
    · exact (protected_iff hnames hfin hin (process_wide S.wide h2)).mpr
        ((S.allowed hn.select h2 hl A.addedOnce A.addedNew A.items hin).mpr A.allowed)

end Tables
end Calliope
