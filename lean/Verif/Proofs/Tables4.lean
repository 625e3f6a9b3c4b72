import Verif.Proofs.Tables3
import Mathlib.Data.List.Basic
import Mathlib.Data.List.Count

/-!
# Proofs about loading data tables: which tables load
-/

namespace Calliope
namespace Tables

open Grid ModelData

variable {V : Type}

/-! ### Names -/

theorem namesDiffer_iff (g : String → String) : ∀ (loaded : List (Option String)) (ns : List String),
    namesDiffer (loaded.map (Option.map g)) ns = false ↔
      ∀ (k : Nat) (n d : String), loaded[k]? = some (some n) → ns[k]? = some d → g n = d
  | [], ns => by simp [namesDiffer]
  | some m :: rest, [] => by simp [namesDiffer]
  | none :: rest, [] => by simp [namesDiffer]
  | none :: rest, d :: ds => by
    rw [List.map_cons, Option.map_none, namesDiffer, namesDiffer_iff g rest ds]
    constructor
    · intro h k n d' h1 h2
      cases k with
      | zero => simp at h1
      | succ k => exact h k n d' (by simpa using h1) (by simpa using h2)
    · intro h k n d' h1 h2
      exact h (k + 1) n d' (by simpa using h1) (by simpa using h2)
  | some m :: rest, d :: ds => by
    rw [List.map_cons, Option.map_some, namesDiffer, Bool.or_eq_false_iff, namesDiffer_iff g rest ds]
    constructor
    · rintro ⟨h0, h⟩ k n d' h1 h2
      cases k with
      | zero =>
        simp only [List.length_cons, Nat.zero_lt_succ, getElem?_pos, List.getElem_cons_zero, Option.some.injEq] at h1 h2
        subst h1 h2
        simpa using h0
      | succ k => exact h k n d' (by simpa using h1) (by simpa using h2)
    · intro h
      refine ⟨?_, ?_⟩
      · have := h 0 m d rfl rfl
        simpa using this
      · intro k n d' h1 h2
        exact h (k + 1) n d' (by simpa using h1) (by simpa using h2)

theorem renamed_iff {t : Table} (hn : (t.rename.map Prod.fst).Nodup) (n d : String) :
    (t.rename.lookup n).getD n = d ↔ Renamed t n d := by
  unfold Renamed
  cases hl : t.rename.lookup n with
  | none =>
    have hno : ∀ m, (n, m) ∉ t.rename := by
      intro m hm
      have := lookup_of_mem hn hm
      simp only at this
      rw [this] at hl
      cases hl
    simp only [Option.getD_none]
    constructor
    · intro h; exact Or.inr ⟨hno, h⟩
    · rintro (h | h)
      · exact absurd h (hno d)
      · exact h.2
  | some m =>
    have hm := mem_of_lookup' hl
    simp only [Option.getD_some]
    constructor
    · rintro rfl; exact Or.inl hm
    · rintro (h | h)
      · have := lookup_of_mem hn h
        simp only at this
        rw [this] at hl
        cases hl; rfl
      · exact absurd hm (h.1 m)

theorem axis_iff {t : Table} (hn : (t.rename.map Prod.fst).Nodup) (names : Option (List String)) (loaded : List (Option String)) :
    (∃ ns, axisNames t.rename names loaded = .ok ns) ↔ AxisFits t loaded names := by
  cases names with
  | none =>
    simp only [axisNames, AxisFits]
    by_cases h : loaded.length = 1 <;> simp [h]
  | some ds =>
    simp only [axisNames, AxisFits]
    by_cases h : loaded.length = ds.length
    · simp only [h, ne_eq, not_true_eq_false, if_false, true_and]
      have key := namesDiffer_iff (fun n => (t.rename.lookup n).getD n) loaded ds
      simp only [renamed_iff hn] at key
      rw [← key]
      cases namesDiffer (loaded.map (Option.map (fun n => (t.rename.lookup n).getD n))) ds <;> simp
    · simp [h]

theorem toTidy_iff {t : Table} {f : Frame V} (hn : Named t f) (rs cs : List (Option String)) :
    (∃ s, toTidy t f rs cs = .ok s) ↔ (t.rows ≠ none ∨ t.columns ≠ none) := by
  unfold toTidy
  cases hrows : t.rows with
  | none =>
    have h1 := hn.rows hrows
    cases hcols : t.columns with
    | none =>
      have h2 := hn.columns hcols
      simp [h1, h2]
    | some ns => simp [h1]
  | some ms =>
    cases hcols : t.columns with
    | none =>
      have h2 := hn.columns hcols
      simp [h2]
    | some ns => simp

/-! ### Steps -/

theorem selectRows_iff {sel : List (String × List Label)} (hs : (sel.map Prod.fst).Nodup) {s : Tidy V} {ns : List String}
    (hnames : s.names = ns.map some) (hn : ns.Nodup) :
    (∃ s', selectRows sel s = .ok s') ↔
      ∀ d ls l, (d, ls) ∈ sel → d ∈ ns → l ∈ ls → ∃ r ∈ s.rows, (some d, l) ∈ s.names.zip r.1 := by
  unfold selectRows
  have key : s.names.zipIdx.any (missing sel s) = false ↔
      ∀ d ls l, (d, ls) ∈ sel → d ∈ ns → l ∈ ls → ∃ r ∈ s.rows, (some d, l) ∈ s.names.zip r.1 := by
    rw [List.any_eq_false]
    constructor
    · intro h d ls l h1 h2 h3
      obtain ⟨k, hk⟩ := List.mem_iff_getElem?.mp h2
      have hk' : s.names[k]? = some (some d) := by rw [hnames, List.getElem?_map, hk]; rfl
      have := h (some d, k) (List.mem_zipIdx_iff_getElem?.mpr hk')
      unfold missing selection at this
      simp only [lookup_of_mem hs h1] at this
      simp only [List.any_eq_true, not_exists, not_and, Bool.not_eq_true', Bool.not_eq_false] at this
      have h4 := this l h3
      obtain ⟨r, hr, hb⟩ := h4
      refine ⟨r, hr, ?_⟩
      rw [List.mem_iff_getElem?]
      exact ⟨k, zip_getElem?.mpr ⟨hk', by simpa using hb⟩⟩
    · rintro h ⟨n, k⟩ hm
      have hk' := List.mem_zipIdx_iff_getElem?.mp hm
      simp only at hk'
      cases n with
      | none => simp [missing, selection]
      | some d =>
        unfold missing selection
        simp only
        cases hl : sel.lookup d with
        | none => simp
        | some ls =>
          simp only [List.any_eq_true, not_exists, not_and, Bool.not_eq_true', Bool.not_eq_false]
          intro l hlm
          have hdn : d ∈ ns := by
            have := List.mem_of_getElem? hk'
            rw [hnames] at this
            simpa using this
          obtain ⟨r, hr, hz⟩ := h d ls l (mem_of_lookup' hl) hdn hlm
          obtain ⟨k', hk2⟩ := List.mem_iff_getElem?.mp hz
          rw [zip_getElem?] at hk2
          have hkk : k = k' := by
            have hnn : s.names.Nodup := by rw [hnames]; exact hn.map (fun a b h => Option.some.inj h)
            obtain ⟨a1, a2⟩ := List.getElem?_eq_some_iff.mp hk'
            obtain ⟨b1, b2⟩ := List.getElem?_eq_some_iff.mp hk2.1
            exact (List.Nodup.getElem_inj_iff hnn).mp (a2.trans b2.symm)
          subst hkk
          exact ⟨r, hr, by rw [hk2.2]; simp⟩
  rw [← key]
  cases s.names.zipIdx.any (missing sel s) <;> simp

theorem dropLevels_iff {drop : List String} {s : Tidy V} {ns : List String} (hnames : s.names = ns.map some) :
    (∃ s', dropLevels drop s = .ok s') ↔ (∀ d ∈ drop, ns.count d = 1) ∧ ∃ d ∈ ns, d ∉ drop := by
  have hcount : ∀ d, s.names.count (some d) = ns.count d := by
    intro d
    rw [hnames]
    exact List.count_map_of_injective _ _ (fun a b h => Option.some.inj h) _
  have hc : drop.any (fun d => decide (s.names.count (some d) ≠ 1)) = false ↔ ∀ d ∈ drop, ns.count d = 1 := by
    simp [List.any_eq_false, hcount]
  have hl : s.names.any (keepLevel drop) = true ↔ ∃ d ∈ ns, d ∉ drop := by
    rw [hnames, List.any_eq_true]
    constructor
    · rintro ⟨x, hx, hk⟩
      obtain ⟨d, hd, rfl⟩ := List.mem_map.mp hx
      exact ⟨d, hd, (keepLevel_some _ _).mp hk⟩
    · rintro ⟨d, hd, hk⟩
      exact ⟨some d, List.mem_map.mpr ⟨d, hd, rfl⟩, (keepLevel_some _ _).mpr hk⟩
  have hk : (∀ d ∈ drop, ns.count d = 1) → drop.any (fun d => !s.names.contains (some d)) = false := by
    intro h
    rw [List.any_eq_false]
    intro d hd
    have : d ∈ ns := List.count_pos_iff.mp (by rw [h d hd]; exact Nat.one_pos)
    simp [hnames, this]
  unfold dropLevels
  constructor
  · rintro ⟨s', h⟩
    split at h
    · cases h
    · split at h
      · cases h
      · rename_i h2
        split at h
        · cases h
        · rename_i h3
          exact ⟨hc.mp (by simpa using h2), hl.mp (by simpa using h3)⟩
  · rintro ⟨h1, h2⟩
    rw [if_neg (by rw [hk h1]; simp), if_neg (by rw [hc.mpr h1]; simp), if_neg (by rw [hl.mpr h2]; simp)]
    exact ⟨_, rfl⟩

theorem addDims_iff : ∀ (ds : List (String × List Label)) (s : Tidy V),
    (∃ s', addDims ds s = .ok s') ↔ ∀ d items, (d, items) ∈ ds → items ≠ []
  | [], s => by simp [addDims]
  | (n, items) :: rest, s => by
    rw [addDims]
    cases items with
    | nil =>
      simp only [List.isEmpty_nil, if_true, reduceCtorEq, exists_false, false_iff, not_forall]
      exact ⟨n, [], List.mem_cons_self .., fun h => h rfl⟩
    | cons l ls =>
      simp only [List.isEmpty_cons, Bool.false_eq_true, if_false]
      rw [addDims_iff rest]
      constructor
      · intro h d its hm
        rcases List.mem_cons.mp hm with hm | hm
        · cases hm; simp
        · exact h d its hm
      · intro h d its hm
        exact h d its (List.mem_cons_of_mem _ hm)

/-- Rows differ after the dimensions are added exactly if they differed before, and no label is added twice. -/
theorem addDims_nodup_iff : ∀ {ds : List (String × List Label)} {s s' : Tidy V}, addDims ds s = .ok s' →
    ((s'.rows.map Prod.fst).Nodup ↔
      (s.rows.map Prod.fst).Nodup ∧ (s.rows ≠ [] → ∀ d items, (d, items) ∈ ds → items.Nodup))
  | [], s, s', h => by
    simp only [addDims, Except.ok.injEq] at h
    subst h; simp
  | (n, items) :: rest, s, s', h => by
    rw [addDims] at h
    split at h
    · cases h
    · rename_i hne
      rw [addDims_nodup_iff h]
      have e1 : (items.flatMap (fun l => s.rows.map (fun r => (l :: r.1, r.2)))).map Prod.fst =
          items.flatMap (fun l => (s.rows.map Prod.fst).map (fun x => l :: x)) := by
        rw [List.map_flatMap]
        apply List.flatMap_congr
        intro l _
        rw [List.map_map, List.map_map]
        rfl
      have hex : ∃ l ls, items = l :: ls := by
        cases items with
        | nil => simp at hne
        | cons l ls => exact ⟨l, ls, rfl⟩
      have hrows : items.flatMap (fun l => s.rows.map (fun r => (l :: r.1, r.2))) ≠ [] ↔ s.rows ≠ [] := by
        obtain ⟨l, ls, rfl⟩ := hex
        cases hr : s.rows with
        | nil => simp
        | cons x xs => simp
      simp only
      rw [e1, List.nodup_flatMap, hrows]
      have hin : (∀ x ∈ items, ((s.rows.map Prod.fst).map (fun y => x :: y)).Nodup) ↔ (s.rows.map Prod.fst).Nodup := by
        constructor
        · intro h
          obtain ⟨l, ls, rfl⟩ := hex
          exact List.Nodup.of_map _ (h l (List.mem_cons_self ..))
        · intro h x _
          exact h.map (fun a b hab => by simpa using hab)
      have hout : items.Pairwise (Function.onFun List.Disjoint (fun l => (s.rows.map Prod.fst).map (fun x => l :: x))) ↔
          (s.rows ≠ [] → items.Nodup) := by
        constructor
        · intro h hr
          obtain ⟨r, hr⟩ := List.exists_mem_of_ne_nil _ hr
          refine h.imp ?_
          rintro a b hab rfl
          have hm : a :: r.1 ∈ (s.rows.map Prod.fst).map (fun x => a :: x) :=
            List.mem_map.mpr ⟨r.1, List.mem_map.mpr ⟨r, hr, rfl⟩, rfl⟩
          exact hab hm hm
        · intro h
          by_cases hr : s.rows = []
          · rw [hr]
            exact List.pairwise_of_forall (fun a b x hx => by simp at hx)
          · refine (h hr).imp ?_
            intro a b hab x h1 h2
            obtain ⟨y, -, rfl⟩ := List.mem_map.mp h1
            obtain ⟨z, -, hz⟩ := List.mem_map.mp h2
            simp only [List.cons.injEq] at hz
            exact hab hz.1.symm
      rw [hin, hout]
      constructor
      · rintro ⟨⟨h1, h2⟩, h3⟩
        refine ⟨h1, fun hr d its hm => ?_⟩
        rcases List.mem_cons.mp hm with hm | hm
        · cases hm; exact h2 hr
        · exact h3 hr d its hm
      · rintro ⟨h1, h2⟩
        exact ⟨⟨h1, fun hr => h2 hr n items (List.mem_cons_self ..)⟩,
          fun hr d its hm => h2 hr d its (List.mem_cons_of_mem _ hm)⟩

/-- A relation between entries at different places is one between pairs of entries. -/
theorem entries_pairwise_of {f : Frame V} {R : List Label × List Label × Option (ModelData.Scalar V) → _ → Prop}
    (h : ∀ i j i' j' r c v r' c' v', Cell f i j r c v → Cell f i' j' r' c' v' → ¬ (i = i' ∧ j = j') →
      R (r, c, v) (r', c', v')) : (entries f).Pairwise R := by
  unfold entries
  rw [List.pairwise_flatMap]
  constructor
  · rintro ⟨r, line⟩ hm
    obtain ⟨i, hi⟩ := List.mem_iff_getElem?.mp hm
    rw [zip_getElem?] at hi
    rw [List.pairwise_map, List.pairwise_iff_getElem]
    intro a b ha hb hab
    have k1 := List.getElem?_eq_getElem ha
    have k2 := List.getElem?_eq_getElem hb
    have k1' := zip_getElem?.mp (k1.trans (by rfl : _ = some ((_ : List Label × Option (ModelData.Scalar V)).1, _)))
    have k2' := zip_getElem?.mp (k2.trans (by rfl : _ = some ((_ : List Label × Option (ModelData.Scalar V)).1, _)))
    exact h i a i b _ _ _ _ _ _ ⟨hi.1, k1'.1, line, hi.2, k1'.2⟩ ⟨hi.1, k2'.1, line, hi.2, k2'.2⟩
      (fun hc => absurd hc.2 (Nat.ne_of_lt hab))
  · rw [List.pairwise_iff_getElem]
    intro a b ha hb hab x hx y hy
    have k1 := zip_getElem?.mp ((List.getElem?_eq_getElem ha).trans (by rfl : _ = some ((_ : List Label × List (Option (ModelData.Scalar V))).1, _)))
    have k2 := zip_getElem?.mp ((List.getElem?_eq_getElem hb).trans (by rfl : _ = some ((_ : List Label × List (Option (ModelData.Scalar V))).1, _)))
    obtain ⟨⟨c, v⟩, hc, rfl⟩ := List.mem_map.mp hx
    obtain ⟨⟨c', v'⟩, hc', rfl⟩ := List.mem_map.mp hy
    obtain ⟨j, hj⟩ := List.mem_iff_getElem?.mp hc
    obtain ⟨j', hj'⟩ := List.mem_iff_getElem?.mp hc'
    rw [zip_getElem?] at hj hj'
    exact h a j b j' _ _ _ _ _ _ ⟨k1.1, hj.1, _, k1.2, hj.2⟩ ⟨k2.1, hj'.1, _, k2.2, hj'.2⟩
      (fun he => absurd he.1 (Nat.ne_of_lt hab))

end Tables
end Calliope
