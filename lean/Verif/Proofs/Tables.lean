import Verif.Spec.Tables

/-!
# Proofs about loading data tables: the steps
-/

namespace Calliope
namespace Tables

open Grid ModelData

variable {V : Type}

/-- Labels agree with `e` along the named levels. -/
def Agrees (names : List (Option String)) (labels : List Label) (e : String → Label) : Prop :=
  ∀ s l, (some s, l) ∈ names.zip labels → l = e s

/-- The series has `v` at the labels `e`. -/
def Holds (s : Tidy V) (e : String → Label) (v : Option (Scalar V)) : Prop :=
  ∃ r ∈ s.rows, r.2 = v ∧ Agrees s.names r.1 e

/-- All rows have a label for each level. -/
def Wide (s : Tidy V) : Prop := ∀ r ∈ s.rows, r.1.length = s.names.length

theorem agrees_cons (n : String) (names : List (Option String)) (l : Label) (labels : List Label) (e : String → Label) :
    Agrees (some n :: names) (l :: labels) e ↔ l = e n ∧ Agrees names labels e := by
  unfold Agrees
  simp only [List.zip_cons_cons, List.mem_cons, Prod.mk.injEq, Option.some.injEq]
  constructor
  · intro h
    exact ⟨h n l (Or.inl ⟨rfl, rfl⟩), fun s l' hm => h s l' (Or.inr hm)⟩
  · rintro ⟨h1, h2⟩ s l' (⟨rfl, rfl⟩ | hm)
    · exact h1
    · exact h2 s l' hm

/-! ### Added dimensions -/

theorem addDims_names : ∀ {ds : List (String × List Label)} {s s' : Tidy V}, addDims ds s = .ok s' →
    s'.names = (ds.map (fun x => some x.1)).reverse ++ s.names
  | [], s, s', h => by
    simp only [addDims, Except.ok.injEq] at h
    subst h; rfl
  | (n, items) :: rest, s, s', h => by
    rw [addDims] at h
    split at h
    · cases h
    · rw [addDims_names h]; simp

theorem addDims_wide : ∀ {ds : List (String × List Label)} {s s' : Tidy V}, addDims ds s = .ok s' → Wide s → Wide s'
  | [], s, s', h, hw => by
    simp only [addDims, Except.ok.injEq] at h
    subst h; exact hw
  | (n, items) :: rest, s, s', h, hw => by
    rw [addDims] at h
    split at h
    · cases h
    · refine addDims_wide h ?_
      intro r hr
      simp only [List.mem_flatMap, List.mem_map] at hr
      obtain ⟨l, -, r', hr', rfl⟩ := hr
      simp [hw r' hr']

theorem addDims_holds : ∀ {ds : List (String × List Label)} {s s' : Tidy V}, addDims ds s = .ok s' →
    ∀ e v, Holds s' e v ↔ Holds s e v ∧ ∀ d items, (d, items) ∈ ds → e d ∈ items
  | [], s, s', h, e, v => by
    simp only [addDims, Except.ok.injEq] at h
    subst h; simp
  | (n, items) :: rest, s, s', h, e, v => by
    rw [addDims] at h
    split at h
    · cases h
    · rw [addDims_holds h e v]
      have hstep : Holds (V := V) ⟨some n :: s.names, items.flatMap (fun l => s.rows.map (fun r => (l :: r.1, r.2)))⟩ e v ↔
          Holds s e v ∧ e n ∈ items := by
        constructor
        · rintro ⟨r, hr, hv, ha⟩
          simp only [List.mem_flatMap, List.mem_map] at hr
          obtain ⟨l, hl, r', hr', rfl⟩ := hr
          rw [agrees_cons] at ha
          exact ⟨⟨r', hr', hv, ha.2⟩, ha.1 ▸ hl⟩
        · rintro ⟨⟨r, hr, hv, ha⟩, hn⟩
          refine ⟨(e n :: r.1, r.2), ?_, hv, (agrees_cons _ _ _ _ _).mpr ⟨rfl, ha⟩⟩
          simp only [List.mem_flatMap, List.mem_map]
          exact ⟨e n, hn, r, hr, rfl⟩
      rw [hstep]
      constructor
      · rintro ⟨⟨h1, h2⟩, h3⟩
        refine ⟨h1, ?_⟩
        intro d its hm
        rcases List.mem_cons.mp hm with hm | hm
        · cases hm; exact h2
        · exact h3 d its hm
      · rintro ⟨h1, h2⟩
        exact ⟨⟨h1, h2 n items (List.mem_cons_self ..)⟩, fun d its hm => h2 d its (List.mem_cons_of_mem _ hm)⟩

/-- Rows that differ after the dimensions are added differed before. -/
theorem addDims_nodup : ∀ {ds : List (String × List Label)} {s s' : Tidy V}, addDims ds s = .ok s' →
    (s'.rows.map Prod.fst).Nodup → (s.rows.map Prod.fst).Nodup
  | [], s, s', h, hn => by
    simp only [addDims, Except.ok.injEq] at h
    subst h; exact hn
  | (n, items) :: rest, s, s', h, hn => by
    rw [addDims] at h
    split at h
    · cases h
    · rename_i hne
      have := addDims_nodup h hn
      cases items with
      | nil => simp at hne
      | cons l ls =>
        simp only [List.flatMap_cons, List.map_append, List.map_map] at this
        have h2 := (List.nodup_append.mp this).1
        have h3 : (List.map (Prod.fst ∘ fun r : List Label × Option (Scalar V) => (l :: r.1, r.2)) s.rows) =
            (s.rows.map Prod.fst).map (fun x => l :: x) := by
          rw [List.map_map]; rfl
        rw [h3] at h2
        exact List.Nodup.of_map _ h2

/-! ### Dropped levels -/

theorem keepLevel_some (drop : List String) (n : String) : keepLevel drop (some n) = true ↔ n ∉ drop := by
  simp [keepLevel]

theorem zip_filter (p : Option String → Bool) : ∀ (names : List (Option String)) (labels : List Label),
    labels.length = names.length →
    (names.filter p).zip (((names.zip labels).filter (fun x => p x.1)).map Prod.snd) =
      (names.zip labels).filter (fun x => p x.1)
  | [], labels, _ => by simp
  | n :: names, [], h => by simp at h
  | n :: names, l :: labels, h => by
    have ih := zip_filter p names labels (by simpa using h)
    by_cases hp : p n = true
    · simp [hp, ih]
    · simp only [Bool.not_eq_true] at hp
      simp [hp, ih]

theorem filter_length (p : Option String → Bool) : ∀ (names : List (Option String)) (labels : List Label),
    labels.length = names.length →
    (((names.zip labels).filter (fun x => p x.1)).map Prod.snd).length = (names.filter p).length
  | [], labels, _ => by simp
  | n :: names, [], h => by simp at h
  | n :: names, l :: labels, h => by
    have ih := filter_length p names labels (by simpa using h)
    by_cases hp : p n = true
    · simpa [hp] using ih
    · simp only [Bool.not_eq_true] at hp
      simpa [hp] using ih

/-- The labels of the levels that are kept. -/
def keptLabels (drop : List String) (names : List (Option String)) (labels : List Label) : List Label :=
  ((names.zip labels).filter (fun x => keepLevel drop x.1)).map Prod.snd

/-- What dropping levels gives. -/
def dropped (drop : List String) (s : Tidy V) : Tidy V :=
  ⟨s.names.filter (keepLevel drop), s.rows.map (fun r => (keptLabels drop s.names r.1, r.2))⟩

theorem dropLevels_ok {drop : List String} {s s' : Tidy V} (h : dropLevels drop s = .ok s') :
    s' = dropped drop s ∧ ∀ d ∈ drop, some d ∈ s.names := by
  unfold dropLevels at h
  split at h
  · cases h
  · rename_i hk
    split at h
    · cases h
    · split at h
      · cases h
      · cases h
        refine ⟨rfl, ?_⟩
        intro d hd
        simp only [List.any_eq_true, not_exists, not_and, Bool.not_eq_true', Bool.not_eq_false, List.contains_eq_mem,
          decide_eq_true_eq, decide_eq_false_iff_not, not_not] at hk
        exact hk d hd

theorem kept_agrees (drop : List String) (names : List (Option String)) (labels : List Label)
    (hl : labels.length = names.length) (e : String → Label) :
    Agrees (names.filter (keepLevel drop)) (keptLabels drop names labels) e ↔
      ∀ s l, (some s, l) ∈ names.zip labels → s ∉ drop → l = e s := by
  unfold Agrees keptLabels
  rw [zip_filter _ _ _ hl]
  simp only [List.mem_filter, keepLevel_some]
  constructor
  · intro h s l hm hd; exact h s l ⟨hm, hd⟩
  · intro h s l hm; exact h s l hm.1 hm.2

theorem filter_keep_nil (names : List (Option String)) : names.filter (keepLevel []) = names := by
  rw [List.filter_eq_self]
  intro n _
  cases n <;> simp [keepLevel]

theorem kept_nil (names : List (Option String)) (labels : List Label) (hl : labels.length = names.length) :
    keptLabels [] names labels = labels := by
  unfold keptLabels
  rw [List.filter_eq_self.mpr]
  · rw [List.map_snd_zip]; omega
  · intro x _
    cases hx : x.1 <;> simp [keepLevel]

/-! ### Selection -/

theorem takes_iff {sel : List (String × List Label)} (hn : (sel.map Prod.fst).Nodup) (s : String) (l : Label) :
    takes sel (some s) l = true ↔ ∀ ls, (s, ls) ∈ sel → l ∈ ls := by
  unfold takes selection
  simp only
  constructor
  · intro h ls hm
    have : sel.lookup s = some ls := by
      clear h
      induction sel with
      | nil => cases hm
      | cons x rest ih =>
        obtain ⟨k, v⟩ := x
        simp only [List.map_cons, List.nodup_cons] at hn
        rcases List.mem_cons.mp hm with hm' | hm'
        · cases hm'; simp [List.lookup]
        · have hne : s ≠ k := by
            intro hs
            exact hn.1 (List.mem_map.mpr ⟨(s, ls), hm', hs⟩)
          rw [List.lookup, show (s == k) = false from by simpa using hne]
          exact ih hn.2 hm'
    rw [this] at h
    simpa using h
  · intro h
    cases hk : sel.lookup s with
    | none => rfl
    | some ls =>
      have hm : (s, ls) ∈ sel := by
        clear h hn
        induction sel with
        | nil => cases hk
        | cons x rest ih =>
          obtain ⟨k, v⟩ := x
          rw [List.lookup] at hk
          cases hb : (s == k) with
          | true =>
            rw [hb] at hk
            have : s = k := by simpa using hb
            cases hk; subst this
            exact List.mem_cons_self ..
          | false =>
            rw [hb] at hk
            exact List.mem_cons_of_mem _ (ih hk)
      simpa using h ls hm

theorem selected_iff {sel : List (String × List Label)} (hn : (sel.map Prod.fst).Nodup) (names : List (Option String))
    (labels : List Label) :
    selected sel names labels = true ↔
      ∀ s l, (some s, l) ∈ names.zip labels → ∀ ls, (s, ls) ∈ sel → l ∈ ls := by
  unfold selected
  rw [List.all_eq_true]
  constructor
  · intro h s l hm
    exact (takes_iff hn s l).mp (h _ hm)
  · rintro h ⟨n, l⟩ hm
    cases n with
    | none => rfl
    | some s => exact (takes_iff hn s l).mpr (h s l hm)

theorem selectRows_ok {sel : List (String × List Label)} {s s' : Tidy V} (h : selectRows sel s = .ok s') :
    s' = ⟨s.names, s.rows.filter (fun r => selected sel s.names r.1)⟩ := by
  unfold selectRows at h
  split at h
  · cases h
  · cases h; rfl

/-! ### All the steps -/

theorem process_ok {t : Table} {s s' : Tidy V} (hw : Wide s) (h : process t s = .ok s') :
    addDims t.addDims (dropped t.drop ⟨s.names, s.rows.filter (fun r => selected t.select s.names r.1)⟩) = .ok s' ∧
      ∀ d ∈ t.drop, some d ∈ s.names := by
  unfold process at h
  cases h1 : selectRows t.select s with
  | error e => rw [h1] at h; cases h
  | ok s1 =>
    rw [h1] at h
    have e1 := selectRows_ok h1
    simp only at h
    by_cases hd : t.drop.isEmpty = true
    · rw [if_pos hd] at h
      have hnil : t.drop = [] := by simpa using hd
      simp only at h
      rw [hnil]
      refine ⟨?_, by simp⟩
      rw [← h]
      congr 1
      rw [e1]
      unfold dropped
      rw [Tidy.mk.injEq]
      refine ⟨filter_keep_nil _, ?_⟩
      simp only
      conv_rhs => rw [← List.map_id (s.rows.filter (fun r => selected t.select s.names r.1))]
      apply List.map_congr_left
      intro r hr
      rw [kept_nil _ _ (hw r (List.mem_filter.mp hr).1)]
      rfl
    · rw [if_neg hd] at h
      cases h2 : dropLevels t.drop s1 with
      | error e => rw [h2] at h; cases h
      | ok s2 =>
        rw [h2] at h
        obtain ⟨e2, hm⟩ := dropLevels_ok h2
        subst e1
        subst e2
        exact ⟨h, hm⟩

theorem dropped_wide (drop : List String) {s : Tidy V} (hw : Wide s) : Wide (dropped drop s) := by
  intro r hr
  simp only [dropped, List.mem_map] at hr
  obtain ⟨r', hr', rfl⟩ := hr
  exact filter_length _ _ _ (hw r' hr')

theorem filter_wide {s : Tidy V} (p : List Label × Option (Scalar V) → Bool) (hw : Wide s) :
    Wide (V := V) ⟨s.names, s.rows.filter p⟩ := fun r hr => hw r (List.mem_filter.mp hr).1

/-- The rows of the processed table. -/
theorem process_holds {t : Table} (hn : (t.select.map Prod.fst).Nodup) {s s' : Tidy V} (hw : Wide s)
    (h : process t s = .ok s') (e : String → Label) (v : Option (Scalar V)) :
    Holds s' e v ↔
      (∃ r ∈ s.rows, r.2 = v ∧ ∀ d l, (some d, l) ∈ s.names.zip r.1 →
        (∀ ls, (d, ls) ∈ t.select → l ∈ ls) ∧ (d ∉ t.drop → l = e d)) ∧
      ∀ d items, (d, items) ∈ t.addDims → e d ∈ items := by
  rw [addDims_holds (process_ok hw h).1]
  refine and_congr ?_ Iff.rfl
  constructor
  · rintro ⟨r, hr, hv, ha⟩
    simp only [dropped, List.mem_map, List.mem_filter] at hr
    obtain ⟨r', ⟨hr', hs⟩, rfl⟩ := hr
    refine ⟨r', hr', hv, ?_⟩
    intro d l hm
    exact ⟨(selected_iff hn _ _).mp hs d l hm, (kept_agrees _ _ _ (hw r' hr') _).mp ha d l hm⟩
  · rintro ⟨r, hr, hv, ha⟩
    refine ⟨(keptLabels t.drop s.names r.1, r.2), ?_, hv, ?_⟩
    · simp only [dropped, List.mem_map, List.mem_filter]
      exact ⟨r, ⟨hr, (selected_iff hn _ _).mpr (fun d l hm => (ha d l hm).1)⟩, rfl⟩
    · exact (kept_agrees _ _ _ (hw r hr) _).mpr (fun d l hm => (ha d l hm).2)

theorem process_names {t : Table} {s s' : Tidy V} (hw : Wide s) (h : process t s = .ok s') :
    s'.names = (t.addDims.map (fun x => some x.1)).reverse ++ s.names.filter (keepLevel t.drop) := by
  rw [addDims_names (process_ok hw h).1]; rfl

theorem process_wide {t : Table} {s s' : Tidy V} (hw : Wide s) (h : process t s = .ok s') : Wide s' :=
  addDims_wide (process_ok hw h).1 (dropped_wide _ (filter_wide _ hw))

end Tables
end Calliope
