import Verif.Proofs.Tables
import Mathlib.Data.List.Dedup

/-!
# Proofs about loading data tables: cells and the dataset
-/

namespace Calliope
namespace Tables

open Grid ModelData

variable {V : Type}

/-! ### Cells -/

theorem zip_getElem? {A B : Type} {l : List A} {m : List B} {i : Nat} {a : A} {b : B} :
    (l.zip m)[i]? = some (a, b) ↔ l[i]? = some a ∧ m[i]? = some b := by
  rw [List.getElem?_zip_eq_some]

theorem mem_entries {f : Frame V} {r c : List Label} {v : Option (Scalar V)} :
    (r, c, v) ∈ entries f ↔ ∃ i j, Cell f i j r c v := by
  unfold entries Cell
  rw [List.mem_flatMap]
  simp only [List.mem_map]
  simp only [List.mem_iff_getElem?]
  constructor
  · rintro ⟨⟨r', line⟩, ⟨i, hi⟩, ⟨c', v'⟩, ⟨j, hj⟩, he⟩
    cases he
    rw [zip_getElem?] at hi hj
    exact ⟨i, j, hi.1, hj.1, line, hi.2, hj.2⟩
  · rintro ⟨i, j, hr, hc, line, hl, hv⟩
    exact ⟨(r, line), ⟨i, zip_getElem?.mpr ⟨hr, hl⟩⟩, (c, v), ⟨j, zip_getElem?.mpr ⟨hc, hv⟩⟩, rfl⟩

/-- Two cells at different places are a pair of entries. -/
theorem entries_pairwise {f : Frame V} {R : List Label × List Label × Option (Scalar V) → _ → Prop}
    (hs : ∀ x y, R x y → R y x) (h : (entries f).Pairwise R) {i j i' j' : Nat} {r c r' c' : List Label}
    {v v' : Option (Scalar V)} (h1 : Cell f i j r c v) (h2 : Cell f i' j' r' c' v') (hne : ¬ (i = i' ∧ j = j')) :
    R (r, c, v) (r', c', v') := by
  unfold entries at h
  rw [List.pairwise_flatMap] at h
  obtain ⟨hin, hout⟩ := h
  obtain ⟨hr, hc, line, hl, hv⟩ := h1
  obtain ⟨hr', hc', line', hl', hv'⟩ := h2
  have e1 : (f.rowLabels.zip f.cells)[i]? = some (r, line) := zip_getElem?.mpr ⟨hr, hl⟩
  have e2 : (f.rowLabels.zip f.cells)[i']? = some (r', line') := zip_getElem?.mpr ⟨hr', hl'⟩
  have k1 : (f.colLabels.zip line)[j]? = some (c, v) := zip_getElem?.mpr ⟨hc, hv⟩
  have k2 : (f.colLabels.zip line')[j']? = some (c', v') := zip_getElem?.mpr ⟨hc', hv'⟩
  obtain ⟨hi, ei⟩ := List.getElem?_eq_some_iff.mp e1
  obtain ⟨hi', ei'⟩ := List.getElem?_eq_some_iff.mp e2
  obtain ⟨hj, ej⟩ := List.getElem?_eq_some_iff.mp k1
  obtain ⟨hj', ej'⟩ := List.getElem?_eq_some_iff.mp k2
  have m1 : (r, c, v) ∈ (f.colLabels.zip line).map (fun y => (r, y.1, y.2)) :=
    List.mem_map.mpr ⟨(c, v), List.mem_of_getElem? k1, rfl⟩
  have m2 : (r', c', v') ∈ (f.colLabels.zip line').map (fun y => (r', y.1, y.2)) :=
    List.mem_map.mpr ⟨(c', v'), List.mem_of_getElem? k2, rfl⟩
  rw [List.pairwise_iff_getElem] at hout
  rcases Nat.lt_trichotomy i i' with hlt | heq | hgt
  · have := hout i i' hi hi' hlt
    rw [ei, ei'] at this
    exact this _ m1 _ m2
  · subst heq
    have hll : r = r' ∧ line = line' := by
      rw [e1] at e2; cases e2; exact ⟨rfl, rfl⟩
    obtain ⟨rfl, rfl⟩ := hll
    have hw := hin (r, line) (List.mem_of_getElem? e1)
    rw [List.pairwise_map, List.pairwise_iff_getElem] at hw
    rcases Nat.lt_trichotomy j j' with hjl | hje | hjg
    · have := hw j j' hj hj' hjl
      rw [ej, ej'] at this; exact this
    · exact absurd ⟨rfl, hje⟩ hne
    · have := hw j' j hj' hj hjg
      rw [ej, ej'] at this; exact hs _ _ this
  · have := hout i' i hi' hi hgt
    rw [ei, ei'] at this
    exact hs _ _ (this _ m2 _ m1)

/-! ### Stacking -/

/-- The dimensions on the rows and columns. -/
def levels (t : Table) : List String := t.rows.getD [] ++ t.columns.getD []

/-- The labels of a cell. -/
def labelsAt (t : Table) (r c : List Label) : List Label :=
  (if t.rows.isNone then [] else r) ++ (if t.columns.isNone then [] else c)

theorem axisNames_some {rn : List (String × String)} {ns : List String} {loaded names : List (Option String)}
    (h : axisNames rn (some ns) loaded = .ok names) : names = ns.map some ∧ loaded.length = ns.length := by
  simp only [axisNames] at h
  split at h
  · cases h
  · rename_i hl
    split at h
    · cases h
    · cases h
      exact ⟨rfl, by simpa using hl⟩

/-- The stacked series. -/
theorem toTidy_ok {t : Table} {f : Frame V} (hn : Named t f) {rs cs : List (Option String)} {s : Tidy V}
    (hr : axisNames t.rename t.rows f.rowNames = .ok rs) (hc : axisNames t.rename t.columns f.colNames = .ok cs)
    (h : toTidy t f rs cs = .ok s) :
    s.names = (levels t).map some ∧ ∃ keep : List Label × List Label × Option (Scalar V) → Bool,
      s.rows = ((entries f).filter keep).map (fun x => (labelsAt t x.1 x.2.1, x.2.2)) ∧
        ∀ x, keep x = true ↔ Counts t x.2.2 := by
  unfold toTidy at h
  cases hrows : t.rows with
  | none =>
    have h1 := hn.rows hrows
    cases hcols : t.columns with
    | none =>
      have h2 := hn.columns hcols
      simp [hrows, hcols, h1, h2] at h
    | some ns =>
      rw [hcols] at hc
      simp only [hcols, hrows, h1, Option.isNone_some, Option.isNone_none, Bool.false_and, Bool.true_and, beq_self_eq_true,
        if_true, Bool.false_eq_true, if_false, Except.ok.injEq] at h
      subst h
      refine ⟨?_, fun _ => true, ?_, fun _ => by simp [Counts, hrows, hcols]⟩
      · simp [levels, hrows, hcols, (axisNames_some hc).1]
      · simp [labelsAt, hrows, hcols]
  | some ms =>
    rw [hrows] at hr
    cases hcols : t.columns with
    | none =>
      have h2 := hn.columns hcols
      simp only [hcols, hrows, h2, Option.isNone_some, Option.isNone_none, Bool.false_and, Bool.true_and, beq_self_eq_true,
        if_true, Bool.false_eq_true, if_false, Except.ok.injEq] at h
      subst h
      refine ⟨?_, fun _ => true, ?_, fun _ => by simp [Counts, hrows, hcols]⟩
      · simp [levels, hrows, hcols, (axisNames_some hr).1]
      · simp [labelsAt, hrows, hcols]
    | some ns =>
      rw [hcols] at hc
      simp only [hcols, hrows, Option.isNone_some, Bool.false_and, Bool.false_eq_true, if_false, Except.ok.injEq] at h
      subst h
      refine ⟨?_, fun x => x.2.2.isSome, ?_, fun x => by simp [Counts, hrows, hcols, Option.isSome_iff_ne_none]⟩
      · simp [levels, hrows, hcols, (axisNames_some hr).1, (axisNames_some hc).1]
      · simp [labelsAt, hrows, hcols]

theorem mem_zip_some {ns : List String} {ls : List Label} {d : String} {l : Label} :
    (some d, l) ∈ (ns.map some).zip ls ↔ (d, l) ∈ ns.zip ls := by
  rw [List.zip_map_left, List.mem_map]
  constructor
  · rintro ⟨⟨a, b⟩, h, he⟩
    cases he; exact h
  · intro h
    exact ⟨(d, l), h, rfl⟩

/-- The lengths of the labels of a cell. -/
theorem cell_lengths {t : Table} {f : Frame V} (hf : Rect f) {rs cs : List (Option String)}
    (hr : axisNames t.rename t.rows f.rowNames = .ok rs) (hc : axisNames t.rename t.columns f.colNames = .ok cs)
    {i j : Nat} {r c : List Label} {v : Option (Scalar V)} (h : Cell f i j r c v) :
    (∀ ns, t.rows = some ns → r.length = ns.length) ∧ (∀ ns, t.columns = some ns → c.length = ns.length) := by
  obtain ⟨h1, h2, -⟩ := h
  constructor
  · intro ns hns
    rw [hns] at hr
    rw [hf.rowLevels r (List.mem_of_getElem? h1), (axisNames_some hr).2]
  · intro ns hns
    rw [hns] at hc
    rw [hf.colLevels c (List.mem_of_getElem? h2), (axisNames_some hc).2]

theorem along_iff {t : Table} {r c : List Label} (h1 : ∀ ns, t.rows = some ns → r.length = ns.length)
    (d : String) (l : Label) :
    (some d, l) ∈ ((levels t).map some).zip (labelsAt t r c) ↔ Along t r c d l := by
  rw [mem_zip_some]
  unfold levels labelsAt Along
  cases hr : t.rows with
  | none => cases hc : t.columns <;> simp
  | some ns =>
    have := h1 ns hr
    cases hc : t.columns with
    | none =>
      simp
    | some ms =>
      simp only [Option.getD_some, Option.isNone_some, Bool.false_eq_true, if_false]
      rw [List.zip_append this.symm, List.mem_append]

theorem labelsAt_length {t : Table} {r c : List Label} (h1 : ∀ ns, t.rows = some ns → r.length = ns.length)
    (h2 : ∀ ns, t.columns = some ns → c.length = ns.length) : (labelsAt t r c).length = (levels t).length := by
  unfold labelsAt levels
  cases hr : t.rows with
  | none =>
    cases hc : t.columns with
    | none => simp
    | some ms => simpa using h2 ms hc
  | some ns =>
    cases hc : t.columns with
    | none => simpa using h1 ns hr
    | some ms => simp [h1 ns hr, h2 ms hc]

/-! ### The dataset -/

theorem agrees_map : ∀ {ns : List String} {labels : List Label}, labels.length = ns.length → ∀ e : String → Label,
    (Agrees (ns.map some) labels e ↔ labels = ns.map e)
  | [], [], _, e => by simp [Agrees]
  | [], _ :: _, h, _ => by simp at h
  | _ :: _, [], h, _ => by simp at h
  | n :: ns, l :: labels, h, e => by
    rw [List.map_cons, agrees_cons, agrees_map (by simpa using h) e, List.map_cons, List.cons.injEq]

theorem filter_some (ns : List String) :
    (ns.map some).filter (fun n => n ≠ some "inputs") = (ns.filter (fun n => n ≠ "inputs")).map some := by
  rw [List.filter_map]
  congr 1
  apply List.filter_congr
  intro x _
  simp

theorem dimName_some (b : Bool) : ∀ (i : Nat) (ns : List String), dimName b i (ns.map some) = ns
  | _, [] => rfl
  | i, n :: ns => by rw [List.map_cons, dimName, dimName_some b (i + 1) ns]

theorem others_map : ∀ {ns : List String} {labels : List Label} (ρ : String → Label), labels.length = ns.length →
    (others (ns.map some) labels = (ns.filter (fun n => n ≠ "inputs")).map ρ ↔
      ∀ s l, (s, l) ∈ ns.zip labels → s ≠ "inputs" → l = ρ s)
  | [], [], _, _ => by simp [others]
  | [], _ :: _, _, h => by simp at h
  | _ :: _, [], _, h => by simp at h
  | n :: ns, l :: labels, ρ, h => by
    have ih := others_map (ns := ns) (labels := labels) ρ (by simpa using h)
    unfold others at ih ⊢
    by_cases hn : n = "inputs"
    · subst hn
      simp only [List.map_cons, List.zip_cons_cons, ne_eq, not_true_eq_false, decide_false, Bool.false_eq_true,
        not_false_eq_true, List.filter_cons_of_neg]
      rw [ih]
      constructor
      · intro h2 s l' hm hs
        rcases List.mem_cons.mp hm with hm' | hm'
        · cases hm'; exact absurd rfl hs
        · exact h2 s l' hm' hs
      · intro h2 s l' hm hs
        exact h2 s l' (List.mem_cons_of_mem _ hm) hs
    · have hn' : (decide (n ≠ "inputs")) = true := by simpa using hn
      have hn2 : (decide (some n ≠ some "inputs")) = true := by simpa using hn
      rw [List.map_cons, List.zip_cons_cons, List.filter_cons_of_pos (by simpa using hn),
        List.filter_cons_of_pos (by simpa using hn), List.map_cons, List.map_cons, List.cons.injEq, ih]
      constructor
      · rintro ⟨h1, h2⟩ s l' hm hs
        rcases List.mem_cons.mp hm with hm' | hm'
        · cases hm'; exact h1
        · exact h2 s l' hm' hs
      · intro h2
        exact ⟨h2 n l (List.mem_cons_self ..) hn, fun s l' hm hs => h2 s l' (List.mem_cons_of_mem _ hm) hs⟩

theorem labelAt_map : ∀ {ns : List String} {labels : List Label} (d p : String), labels.length = ns.length → ns.Nodup →
    (labelAt (ns.map some) labels d = some p ↔ (d, p) ∈ ns.zip labels)
  | [], [], _, _, _, _ => by simp [labelAt]
  | [], _ :: _, _, _, h, _ => by simp at h
  | _ :: _, [], _, _, h, _ => by simp at h
  | n :: ns, l :: labels, d, p, h, hd => by
    have ih := labelAt_map (ns := ns) (labels := labels) d p (by simpa using h) (List.nodup_cons.mp hd).2
    unfold labelAt at ih ⊢
    rw [List.map_cons, List.zip_cons_cons, List.lookup]
    by_cases hn : d = n
    · subst hn
      simp only [beq_self_eq_true, List.zip_cons_cons, List.mem_cons, Prod.mk.injEq, true_and, Option.some.injEq]
      constructor
      · intro h; exact Or.inl h.symm
      · rintro (h | h)
        · exact h.symm
        · exact absurd (List.of_mem_zip h).1 (List.nodup_cons.mp hd).1
    · have : (some d == some n) = false := by simpa using hn
      rw [this]
      simp only [List.zip_cons_cons, List.mem_cons, Prod.mk.injEq, hn, false_and, false_or]
      exact ih

theorem labelAt_isSome {ns : List String} {labels : List Label} (hl : labels.length = ns.length) (hn : ns.Nodup) {d : String}
    (hd : d ∈ ns) : ∃ p, labelAt (ns.map some) labels d = some p := by
  obtain ⟨i, hi⟩ := List.mem_iff_getElem?.mp hd
  obtain ⟨hlt, -⟩ := List.getElem?_eq_some_iff.mp hi
  refine ⟨labels[i]'(by omega), (labelAt_map _ _ hl hn).mpr ?_⟩
  rw [List.mem_iff_getElem?]
  exact ⟨i, zip_getElem?.mpr ⟨hi, List.getElem?_eq_getElem _⟩⟩

/-- The row of the series at the labels of a value. -/
theorem row_iff {ns : List String} {labels : List Label} (hl : labels.length = ns.length) (hn : ns.Nodup)
    (hi : "inputs" ∈ ns) (p : String) (ρ : String → Label) :
    (labelAt (ns.map some) labels "inputs" = some p ∧
      others (ns.map some) labels = (ns.filter (fun n => n ≠ "inputs")).map ρ) ↔
      Agrees (ns.map some) labels (target p ρ) := by
  rw [others_map ρ hl]
  unfold Agrees
  simp only [mem_zip_some]
  constructor
  · rintro ⟨h1, h2⟩ s l hm
    by_cases hs : s = "inputs"
    · subst hs
      rw [(labelAt_map _ _ hl hn).mpr hm] at h1
      simpa [target] using h1
    · simpa [target, hs] using h2 s l hm hs
  · intro h
    constructor
    · obtain ⟨q, hq⟩ := labelAt_isSome hl hn hi
      have := h _ _ ((labelAt_map _ _ hl hn).mp hq)
      rw [hq, this]; simp [target]
    · intro s l hm hs
      simpa [target, hs] using h s l hm

theorem lookup_map_self {A : Type} (F : String → A) : ∀ (l : List String) (p : String),
    (l.map (fun q => (q, F q))).lookup p = if p ∈ l then some (F p) else none
  | [], p => by simp
  | q :: l, p => by
    rw [List.map_cons, List.lookup]
    by_cases h : p = q
    · subst h; simp
    · have : (p == q) = false := by simpa using h
      rw [this]
      simp only [lookup_map_self F l p, List.mem_cons, h, false_or]

/-- The values of the dataset. -/
theorem toDataset_value {s : Tidy V} {ns : List String} (hs : s.names = ns.map some) (hn : ns.Nodup) (hi : "inputs" ∈ ns)
    (hw : Wide s) (hd : (s.rows.map Prod.fst).Nodup) (p : String) (ρ : String → Label) (v : Scalar V) :
    valueOf (toDataset s) p ρ = some v ↔ Holds s (target p ρ) (some v) := by
  have hlen : ∀ r ∈ s.rows, r.1.length = ns.length := by
    intro r hr
    rw [hw r hr, hs, List.length_map]
  have hrow : ∀ r ∈ s.rows, ((labelAt s.names r.1 "inputs" == some p &&
      others s.names r.1 == (ns.filter (fun n => n ≠ "inputs")).map ρ) = true ↔ Agrees s.names r.1 (target p ρ)) := by
    intro r hr
    rw [Bool.and_eq_true, beq_iff_eq, beq_iff_eq, hs]
    exact row_iff (hlen r hr) hn hi p ρ
  have huniq : ∀ r ∈ s.rows, ∀ r' ∈ s.rows, Agrees s.names r.1 (target p ρ) → Agrees s.names r'.1 (target p ρ) → r = r' := by
    intro r hr r' hr' h1 h2
    rw [hs, agrees_map (hlen r hr)] at h1
    rw [hs, agrees_map (hlen r' hr')] at h2
    exact List.inj_on_of_nodup_map hd hr hr' (h1.trans h2.symm)
  unfold valueOf toDataset
  simp only [hs, filter_some, dimName_some]
  rw [lookup_map_self (fun p => (⟨_, _⟩ : Arr (Option (Scalar V))))]
  rw [← hs]
  by_cases hp : p ∈ (s.rows.filterMap (fun r => labelAt s.names r.1 "inputs")).dedup
  · rw [if_pos hp]
    simp only [Arr.at]
    constructor
    · intro h
      split at h
      · cases h
      · rename_i r hf
        have hm := List.mem_of_find?_eq_some hf
        have hb := List.find?_some hf
        exact ⟨r, hm, h, (hrow r hm).mp hb⟩
    · rintro ⟨r, hr, hv, ha⟩
      have hsome : (s.rows.find? (fun r => labelAt s.names r.1 "inputs" == some p &&
          others s.names r.1 == (ns.filter (fun n => n ≠ "inputs")).map ρ)).isSome = true := by
        rw [List.find?_isSome]
        exact ⟨r, hr, (hrow r hr).mpr ha⟩
      obtain ⟨r', hf⟩ := Option.isSome_iff_exists.mp hsome
      have hm := List.mem_of_find?_eq_some hf
      have hb := List.find?_some hf
      have hrr := huniq r hr r' hm ha ((hrow r' hm).mp hb)
      subst hrr
      rw [hf]
      exact hv
  · rw [if_neg hp]
    simp only [reduceCtorEq, false_iff]
    rintro ⟨r, hr, -, ha⟩
    apply hp
    rw [List.mem_dedup, List.mem_filterMap]
    rw [hs] at ha
    refine ⟨r, hr, ?_⟩
    rw [hs]
    exact ((row_iff (hlen r hr) hn hi p ρ).mpr ha).1

end Tables
end Calliope
