import Verif.Spec.Csv
import Verif.Proofs.SaveLoad

/-!
# Property of saving a model to CSV files (C94)

`toCsv inputs results attrs dropna overwrite e k`: what is at the path, where `e` was, after `k` files have been written,
and whether an error was raised.
-/

namespace Calliope
namespace Csv

open Grid ModelData Clean

section

variable {V A : Type}

theorem mem_cells {coords : String → List Label} : ∀ {dims : List String} {c : List Label}, c ∈ cells coords dims ↔
    c.length = dims.length ∧ ∀ x ∈ dims.zip c, x.2 ∈ coords x.1
  | [], c => by
    simp only [cells, List.mem_singleton, List.length_nil, List.length_eq_zero_iff, List.zip_nil_left,
      List.not_mem_nil, false_implies, implies_true, and_true]
  | d :: ds, c => by
    simp only [cells, List.mem_flatMap, List.mem_map]
    constructor
    · rintro ⟨l, hl, c', hc', rfl⟩
      obtain ⟨h1, h2⟩ := mem_cells.1 hc'
      refine ⟨by simp [h1], fun x hx => ?_⟩
      simp only [List.zip_cons_cons, List.mem_cons] at hx
      rcases hx with rfl | hx
      · exact hl
      · exact h2 x hx
    · rintro ⟨h1, h2⟩
      cases c with
      | nil => cases h1
      | cons l c' =>
        refine ⟨l, h2 (d, l) (by simp), c', mem_cells.2 ⟨by simpa using h1, fun x hx => h2 x (by simp [hx])⟩, rfl⟩

theorem cells_nodup {coords : String → List Label} (h : ∀ d, (coords d).Nodup) :
    ∀ dims : List String, (cells coords dims).Nodup
  | [] => by simp [cells]
  | d :: ds => by
    simp only [cells]
    rw [List.nodup_flatMap]
    refine ⟨fun l _ => (cells_nodup h ds).map (fun a b hab => by simpa using hab), ?_⟩
    refine (h d).imp ?_
    intro a b hab x hx hy
    simp only [List.mem_map] at hx hy
    obtain ⟨x1, _, rfl⟩ := hx
    obtain ⟨y1, _, hy1⟩ := hy
    simp only [List.cons.injEq] at hy1
    exact hab hy1.1.symm

/-- Labels as an assignment: the list of labels of distinct dimensions comes from one. -/
theorem assignment : ∀ {dims : List String} {c : List Label}, dims.Nodup → c.length = dims.length →
    ∃ ρ : String → Label, c = dims.map ρ
  | [], c, _, h => ⟨fun _ => "", by simpa using h⟩
  | d :: ds, [], _, h => by cases h
  | d :: ds, l :: c, hn, h => by
    obtain ⟨ρ, hρ⟩ := assignment (dims := ds) (c := c) (List.nodup_cons.1 hn).2 (by simpa using h)
    refine ⟨fun x => if x = d then l else ρ x, ?_⟩
    simp only [List.map_cons, if_true, List.cons.injEq, true_and]
    rw [hρ]
    apply List.map_congr_left
    intro x hx
    rw [if_neg]
    rintro rfl
    exact (List.nodup_cons.1 hn).1 hx

theorem map_mem_cells {coords : List (String × Label)} {ρ : String → Label} : ∀ {dims : List String},
    dims.map ρ ∈ cells (labelsU coords) dims ↔ ∀ d ∈ dims, (d, ρ d) ∈ coords
  | [] => by simp [cells]
  | d :: ds => by
    rw [List.forall_mem_cons, ← map_mem_cells (dims := ds), ← SaveLoad.mem_labelsU]
    simp only [cells, List.map_cons, List.mem_flatMap, List.mem_map, List.cons.injEq]
    constructor
    · rintro ⟨l, hl, c, hc, rfl, rfl⟩
      exact ⟨hl, hc⟩
    · rintro ⟨h1, h2⟩
      exact ⟨_, h1, _, h2, rfl, rfl⟩

/-- **C94** The file of an array has a row for each of its cells, once, with the labels and the value; without those whose
value is missing if they are to be left out. -/
theorem C94_rows (ds : DS V) (dropna : Bool) (a : Arr (Option (ModelData.Scalar V))) (hn : a.dims.Nodup) :
    Shows ds dropna a (table (labelsU ds.coords) dropna a) where
  header := rfl
  row ρ hρ v := by
    simp only [table, List.mem_filter, List.mem_map, Prod.mk.injEq, Bool.or_eq_true, Bool.not_eq_true']
    constructor
    · rintro ⟨⟨c, _, rfl, rfl⟩, h⟩
      refine ⟨rfl, fun hd hv => ?_⟩
      rw [hd, hv] at h
      simp at h
    · rintro ⟨rfl, h⟩
      refine ⟨⟨_, map_mem_cells.2 hρ, rfl, rfl⟩, ?_⟩
      cases dropna with
      | false => exact .inl rfl
      | true => exact .inr (Option.isSome_iff_ne_none.2 (h rfl))
  only r hr := by
    simp only [table, List.mem_filter, List.mem_map] at hr
    obtain ⟨⟨c, hc, rfl⟩, _⟩ := hr
    obtain ⟨ρ, hρ⟩ := assignment hn (mem_cells.1 hc).1
    refine ⟨ρ, hρ, ?_⟩
    subst hρ
    exact map_mem_cells.1 hc
  once := by
    simp only [table]
    refine (List.Sublist.map Prod.fst List.filter_sublist).nodup ?_
    rw [List.map_map]
    show ((cells (labelsU ds.coords) a.dims).map (fun c => c)).Nodup
    rw [List.map_id']
    exact cells_nodup (fun d => SaveLoad.labelsU_nodup _ _) _

/-! ### Files -/

theorem fileName_inj {g v w : String} (h : fileName g v = fileName g w) : v = w := by
  unfold fileName at h
  have := congrArg String.toList h
  simp only [String.toList_append, List.append_assoc, List.append_cancel_left_eq, List.append_cancel_right_eq] at this
  exact String.toList_inj.1 this

theorem fileName_first {g v : String} {c : Char} {rest : List Char} (h : g.toList = c :: rest) :
    (fileName g v).toList.head? = some c := by
  unfold fileName
  simp [String.toList_append, h]

theorem apart (v w : String) : fileName "inputs" v ≠ fileName "results" w ∧ fileName "inputs" v ≠ "attrs.yaml" ∧
    fileName "results" v ≠ "attrs.yaml" := by
  have h1 : (fileName "inputs" v).toList.head? = some 'i' := fileName_first (rest := "nputs".toList) (by decide)
  have h2 : ∀ w, (fileName "results" w).toList.head? = some 'r' := fun w =>
    fileName_first (rest := "esults".toList) (by decide)
  have h3 : ("attrs.yaml" : String).toList.head? = some 'a' := by decide
  refine ⟨fun h => ?_, fun h => ?_, fun h => ?_⟩
  · rw [h, h2] at h1; revert h1; decide
  · rw [h, h3] at h1; revert h1; decide
  · have := h2 v
    rw [h, h3] at this; revert this; decide

theorem plan_names {inputs results : DS V} {attrs : A} {dropna : Bool} (hi : (inputs.vars.map Prod.fst).Nodup)
    (hr : (results.vars.map Prod.fst).Nodup) : ((plan inputs results attrs dropna).map Prod.fst).Nodup := by
  have hg : ∀ (g : String) (ds : DS V), (ds.vars.map Prod.fst).Nodup →
      (((filesOf g dropna ds : List (String × Content V A)).map Prod.fst)).Nodup := by
    intro g ds h
    simp only [filesOf, List.map_map]
    have : (Prod.fst ∘ fun x : String × Arr (Option (ModelData.Scalar V)) =>
        (fileName g x.1, (Content.csv (table (labelsU ds.coords) dropna x.2) : Content V A))) =
        (fun n => fileName g n) ∘ Prod.fst := rfl
    rw [this, ← List.map_map]
    exact h.map (fun a b => fileName_inj)
  have hm : ∀ (g : String) (ds : DS V) (n : String),
      n ∈ (filesOf g dropna ds : List (String × Content V A)).map Prod.fst → ∃ v, n = fileName g v := by
    intro g ds n hn
    simp only [filesOf, List.map_map, List.mem_map, Function.comp_apply] at hn
    obtain ⟨x, _, rfl⟩ := hn
    exact ⟨x.1, rfl⟩
  unfold plan
  rw [List.map_append, List.map_append, List.nodup_append, List.nodup_append]
  refine ⟨⟨hg _ _ hi, ?_, ?_⟩, by simp, ?_⟩
  · split
    · simp
    · exact hg _ _ hr
  · intro a ha b hb hab
    subst hab
    obtain ⟨v, rfl⟩ := hm _ _ _ ha
    split at hb
    · simp at hb
    · obtain ⟨w, hw⟩ := hm _ _ _ hb
      exact (apart v w).1 hw
  · intro a ha b hb hab
    subst hab
    simp only [List.map_cons, List.map_nil, List.mem_singleton] at hb
    subst hb
    rw [List.mem_append] at ha
    rcases ha with ha | ha
    · obtain ⟨v, hv⟩ := hm _ _ _ ha
      exact (apart v v).2.1 hv.symm
    · split at ha
      · simp at ha
      · obtain ⟨v, hv⟩ := hm _ _ _ ha
        exact (apart v v).2.2 hv.symm

theorem lookup_write (files : List (String × Content V A)) (name : String) (c : Content V A) (n : String) :
    (write files name c).lookup n = if n = name then some c else files.lookup n := by
  unfold write
  induction files with
  | nil =>
    simp only [List.filter_nil, List.nil_append, List.lookup_cons, List.lookup_nil]
    by_cases h : n = name
    · simp [h]
    · simp [h, beq_false_of_ne h]
  | cons x xs ih =>
    obtain ⟨m, y⟩ := x
    by_cases hm : m = name
    · rw [List.filter_cons_of_neg (by simpa using hm), ih, List.lookup_cons]
      by_cases h : n = name
      · simp [h]
      · have : n ≠ m := fun hh => h (hh.trans hm)
        simp [h, beq_false_of_ne this]
    · rw [List.filter_cons_of_pos (by simpa using hm), List.cons_append, List.lookup_cons, ih, List.lookup_cons]
      by_cases h : n = m
      · subst h
        simp [hm]
      · simp [beq_false_of_ne h]

theorem lookup_fold (l : List (String × Content V A)) (hn : (l.map Prod.fst).Nodup) :
    ∀ (files : List (String × Content V A)) (n : String),
      (l.foldl (fun fs f => write fs f.1 f.2) files).lookup n = (l.lookup n).or (files.lookup n) := by
  induction l with
  | nil => intro files n; simp
  | cons x xs ih =>
    intro files n
    rw [List.map_cons, List.nodup_cons] at hn
    rw [List.foldl_cons, ih hn.2, lookup_write, List.lookup_cons]
    by_cases h : n = x.1
    · subst h
      have : xs.lookup x.1 = none := by
        rw [List.lookup_eq_none_iff]
        intro p hp
        rw [bne_iff_ne]
        intro hh
        exact hn.1 (List.mem_map.2 ⟨p, hp, hh.symm⟩)
      simp [this]
    · simp [h, beq_false_of_ne h]

theorem nodup_take {l : List (String × Content V A)} (h : (l.map Prod.fst).Nodup) (k : Nat) :
    ((l.take k).map Prod.fst).Nodup := (List.Sublist.map Prod.fst (List.take_sublist k l)).nodup h

/-- **C94** Saving raises exactly if there is something at the path, unless it is a directory and overwriting is allowed;
then nothing is changed. -/
theorem C94_exists (inputs results : DS V) (attrs : A) (dropna overwrite : Bool) (e : Entry V A) (k : Nat) :
    ((toCsv inputs results attrs dropna overwrite e k).2 = true ↔
      e = .notDir ∨ (overwrite = false ∧ ∃ files, e = .dir files)) ∧
    ((toCsv inputs results attrs dropna overwrite e k).2 = true →
      (toCsv inputs results attrs dropna overwrite e k).1 = e) := by
  unfold toCsv mkdir
  cases e with
  | absent => simp
  | notDir => simp
  | dir files =>
    cases overwrite <;> simp

theorem saved {inputs results : DS V} {attrs : A} {dropna overwrite : Bool} {e : Entry V A}
    (hi : (inputs.vars.map Prod.fst).Nodup) (hr : (results.vars.map Prod.fst).Nodup) {k : Nat}
    (h : (toCsv inputs results attrs dropna overwrite e k).2 = false) (n : String) :
    (toCsv inputs results attrs dropna overwrite e k).1.file n =
      (((plan inputs results attrs dropna).take k).lookup n).or (e.file n) := by
  have hp := nodup_take (plan_names (attrs := attrs) (dropna := dropna) hi hr) k
  unfold toCsv at h ⊢
  cases e with
  | absent =>
    simp only [mkdir, Entry.file]
    rw [lookup_fold _ hp]
    rfl
  | notDir => simp [mkdir] at h
  | dir files =>
    cases overwrite with
    | false => simp [mkdir] at h
    | true =>
      simp only [mkdir, if_true, Entry.file]
      rw [lookup_fold _ hp]

theorem lookup_files {g : String} {dropna : Bool} {ds : DS V} (v : String) :
    (filesOf g dropna ds : List (String × Content V A)).lookup (fileName g v) =
      (ds.vars.lookup v).map (fun a => .csv (table (labelsU ds.coords) dropna a)) := by
  unfold filesOf
  induction ds.vars with
  | nil => rfl
  | cons x xs ih =>
    rw [List.map_cons, List.lookup_cons, List.lookup_cons, ih]
    by_cases h : v = x.1
    · subst h
      simp
    · have h' : fileName g v ≠ fileName g x.1 := fun hh => h (fileName_inj hh)
      simp [beq_false_of_ne h, beq_false_of_ne h']

theorem lookup_others {g : String} {dropna : Bool} {ds : DS V} {n : String} (h : ∀ v, n ≠ fileName g v) :
    (filesOf g dropna ds : List (String × Content V A)).lookup n = none := by
  rw [List.lookup_eq_none_iff]
  intro p hp
  simp only [filesOf, List.mem_map] at hp
  obtain ⟨x, _, rfl⟩ := hp
  exact bne_iff_ne.2 (h _)

theorem lookup_of_mem' {β : Type} {l : List (String × β)} (hn : (l.map Prod.fst).Nodup) {x : String × β} (hx : x ∈ l) :
    l.lookup x.1 = some x.2 := by
  induction l with
  | nil => cases hx
  | cons y ys ih =>
    rw [List.map_cons, List.nodup_cons] at hn
    rw [List.lookup_cons]
    rcases List.mem_cons.1 hx with rfl | hx
    · simp
    · have : x.1 ≠ y.1 := fun h => hn.1 (List.mem_map.2 ⟨x, hx, h⟩)
      rw [beq_false_of_ne this]
      exact ih hn.2 hx

theorem lookup_append (l m : List (String × Content V A)) (n : String) :
    (l ++ m).lookup n = (l.lookup n).or (m.lookup n) := by
  induction l with
  | nil => simp
  | cons x xs ih =>
    rw [List.cons_append, List.lookup_cons, List.lookup_cons, ih]
    cases n == x.1 <;> simp

/-- **C94** When saving returns, there is a file for each input and each result, that shows it, and one with the
attributes, in `attrs.yaml`. -/
theorem C94_files {inputs results : DS V} {attrs : A} {dropna overwrite : Bool} {e : Entry V A}
    (hi : (inputs.vars.map Prod.fst).Nodup) (hr : (results.vars.map Prod.fst).Nodup) {k : Nat}
    (hk : (plan inputs results attrs dropna).length ≤ k)
    (h : (toCsv inputs results attrs dropna overwrite e k).2 = false) :
    (∀ v a, inputs.vars.lookup v = some a → a.dims.Nodup →
      ∃ t, (toCsv inputs results attrs dropna overwrite e k).1.file ("inputs_" ++ v ++ ".csv") = some (.csv t) ∧
        Shows inputs dropna a t) ∧
    (∀ v a, results.vars.lookup v = some a → a.dims.Nodup →
      ∃ t, (toCsv inputs results attrs dropna overwrite e k).1.file ("results_" ++ v ++ ".csv") = some (.csv t) ∧
        Shows results dropna a t) ∧
    (toCsv inputs results attrs dropna overwrite e k).1.file "attrs.yaml" = some (.yaml attrs) := by
  have hs := saved hi hr h
  rw [List.take_of_length_le hk] at hs
  have e1 : ∀ v, "inputs_" ++ v ++ ".csv" = fileName "inputs" v := fun v => rfl
  have e2 : ∀ v, "results_" ++ v ++ ".csv" = fileName "results" v := fun v => rfl
  refine ⟨fun v a ha hd => ⟨_, ?_, C94_rows inputs dropna a hd⟩, fun v a ha hd => ⟨_, ?_, C94_rows results dropna a hd⟩, ?_⟩
  · rw [hs, plan, lookup_append, lookup_append, e1, lookup_files, ha]
    rfl
  · rw [hs, plan, lookup_append, lookup_append, e2, lookup_others (fun w hw => (apart w v).1 hw.symm), if_neg,
      lookup_files, ha]
    · rfl
    · intro hh
      cases hv : results.vars with
      | nil => rw [hv] at ha; cases ha
      | cons x xs => rw [hv] at hh; cases hh
  · rw [hs, plan, lookup_append, lookup_append, lookup_others (fun w hw => (apart w w).2.1 hw.symm)]
    split
    · rfl
    · rw [lookup_others (fun w hw => (apart w w).2.2 hw.symm)]
      rfl

/-- **C94** Other files: in a new directory there are none; files that were in an overwritten directory remain as they
are.  Also if saving is interrupted, a file is either one that is to be written or what was there. -/
theorem C94_others {inputs results : DS V} {attrs : A} {dropna overwrite : Bool} {e : Entry V A}
    (hi : (inputs.vars.map Prod.fst).Nodup) (hr : (results.vars.map Prod.fst).Nodup) {k : Nat}
    (h : (toCsv inputs results attrs dropna overwrite e k).2 = false) {n : String}
    (h1 : ∀ v a, inputs.vars.lookup v = some a → n ≠ "inputs_" ++ v ++ ".csv")
    (h2 : ∀ v a, results.vars.lookup v = some a → n ≠ "results_" ++ v ++ ".csv") (h3 : n ≠ "attrs.yaml") :
    (toCsv inputs results attrs dropna overwrite e k).1.file n = e.file n := by
  rw [saved hi hr h]
  have key : ∀ (g : String) (ds : DS V), (ds.vars.map Prod.fst).Nodup →
      (∀ v a, ds.vars.lookup v = some a → n ≠ fileName g v) →
      ∀ p ∈ (filesOf g dropna ds : List (String × Content V A)), n ≠ p.1 := by
    intro g ds hn hh p hp
    simp only [filesOf, List.mem_map] at hp
    obtain ⟨x, hx, rfl⟩ := hp
    refine hh x.1 x.2 ?_
    exact lookup_of_mem' hn hx
  have hnone : ((plan inputs results attrs dropna).take k).lookup n = none := by
    rw [List.lookup_eq_none_iff]
    intro p hp
    rw [bne_iff_ne]
    have hp' := List.mem_of_mem_take hp
    unfold plan at hp'
    rw [List.mem_append, List.mem_append] at hp'
    rcases hp' with (hp' | hp') | hp'
    · exact key "inputs" inputs hi h1 p hp'
    · split at hp'
      · simp at hp'
      · exact key "results" results hr h2 p hp'
    · simp only [List.mem_singleton] at hp'
      subst hp'
      exact h3
  rw [hnone]
  rfl

/-- **C94** If saving is interrupted, each file is what it was, or what it is to be. -/
theorem C94_interrupted {inputs results : DS V} {attrs : A} {dropna overwrite : Bool} {e : Entry V A}
    (hi : (inputs.vars.map Prod.fst).Nodup) (hr : (results.vars.map Prod.fst).Nodup) {k : Nat}
    (h : (toCsv inputs results attrs dropna overwrite e k).2 = false) (n : String) :
    (toCsv inputs results attrs dropna overwrite e k).1.file n = e.file n ∨
    ∀ j, (plan inputs results attrs dropna).length ≤ j →
      (toCsv inputs results attrs dropna overwrite e k).1.file n =
        (toCsv inputs results attrs dropna overwrite e j).1.file n := by
  rw [saved hi hr h]
  cases hl : ((plan inputs results attrs dropna).take k).lookup n with
  | none => exact .inl rfl
  | some c =>
    right
    intro j hj
    have hj' : (toCsv inputs results attrs dropna overwrite e j).2 = false := by
      rw [← h]
      unfold toCsv
      cases mkdir overwrite e <;> rfl
    rw [saved hi hr hj', List.take_of_length_le hj]
    have : (plan inputs results attrs dropna).lookup n = some c := by
      have h1 := List.take_append_drop k (plan inputs results attrs dropna)
      rw [← h1, lookup_append, hl]
      rfl
    rw [this]

end

/-! ### A small model -/

namespace Demo

def inputs : DS Nat :=
  ⟨[("nodes", "a"), ("nodes", "b"), ("techs", "pv")],
   [("cap", ⟨["nodes", "techs"], fun c => if c = ["a", "pv"] then some (.num 5) else none⟩),
    ("big_m", ⟨[], fun _ => some (.num 1000)⟩)]⟩

def results : DS Nat := ⟨[("nodes", "a"), ("nodes", "b")], [("cap", ⟨["nodes"], fun _ => some (.num 3)⟩)]⟩

def old : Entry Nat String := .dir [("inputs_cap.csv", .other "old"), ("inputs_gone.csv", .other "old")]

/-- The rows of a file. -/
def rows (n : String) (e : Entry Nat String) : Option (List (List Label × Option (ModelData.Scalar Nat))) :=
  match e.file n with
  | some (.csv t) => some t.rows
  | _ => none

/-- The hypotheses of `C94_files` are met; inputs and results of the same name have each their file. -/
example : (inputs.vars.map Prod.fst).Nodup ∧ (results.vars.map Prod.fst).Nodup ∧
    (toCsv inputs results "x" true false .absent 9).2 = false ∧
    rows "inputs_cap.csv" (toCsv inputs results "x" true false .absent 9).1 = some [(["a", "pv"], some (.num 5))] ∧
    rows "inputs_cap.csv" (toCsv inputs results "x" false false .absent 9).1 =
      some [(["a", "pv"], some (.num 5)), (["b", "pv"], none)] ∧
    rows "inputs_big_m.csv" (toCsv inputs results "x" true false .absent 9).1 = some [([], some (.num 1000))] ∧
    rows "results_cap.csv" (toCsv inputs results "x" true false .absent 9).1 =
      some [(["a"], some (.num 3)), (["b"], some (.num 3))] := by
  refine ⟨?_, ?_, ?_, ?_, ?_, ?_, ?_⟩ <;> decide +kernel

/-- A directory is not overwritten unless that is allowed; then files of other inputs remain. -/
example : (toCsv inputs results "x" true false old 9).2 = true ∧ (toCsv inputs results "x" true true old 9).2 = false ∧
    (match (toCsv inputs results "x" true true old 9).1.file "inputs_gone.csv" with
      | some (.other s) => s == "old"
      | _ => false) = true := by
  decide +kernel

end Demo

end Csv
end Calliope
