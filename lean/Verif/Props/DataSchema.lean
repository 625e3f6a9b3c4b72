import Verif.Spec.DataSchema
import Verif.Props.AttrName

/-!
# C110: input data that passes validation can be loaded
-/

namespace Calliope
namespace DataSchema

open ModelData (Scalar Ctx prepare)

section
variable {V : Type} [DecidableEq V]

theorem ofList_toList_single_inj {c d : Char} (h : String.ofList [c] = String.ofList [d]) : c = d := by
  have := congrArg String.toList h
  simpa using this

theorem chars_inj {s t : List Char}
    (h : s.map (fun c => Lab.str (V := V) (String.ofList [c])) = t.map (fun c => Lab.str (String.ofList [c]))) : s = t := by
  refine List.map_injective_iff.2 ?_ h
  intro a b e
  have : String.ofList [a] = String.ofList [b] := by injection e
  exact ofList_toList_single_inj this

theorem tuple_eq {a b : Entry V} (ha : a.tuple ≠ none) : a.tuple = b.tuple ↔ TakenForOne a b := by
  constructor
  · intro h
    rcases a with (s | v) | xs <;> rcases b with (t | w) | ys
    · simp only [Entry.tuple, Option.some.injEq] at h
      have := chars_inj h
      rw [String.toList_inj] at this
      subst this; exact .same _
    · cases h
    · simp only [Entry.tuple, Option.some.injEq] at h
      subst h; exact .chars s
    · exact absurd rfl ha
    · exact absurd rfl ha
    · exact absurd rfl ha
    · simp only [Entry.tuple, Option.some.injEq] at h
      subst h; exact .chars' t
    · cases h
    · simp only [Entry.tuple, Option.some.injEq] at h
      subst h; exact .same _
  · intro h
    cases h <;> rfl

theorem taken_one {x : Lab V} {b : Entry V} (hb : b.isList = false) : TakenForOne (.one x) b ↔ Entry.one x = b := by
  constructor
  · intro h
    cases h with
    | same => rfl
    | chars => cases hb
  · rintro rfl; exact .same _

theorem unique_iff (es : List (Entry V)) : uniqueEntries es = .ok () ↔
    es.Pairwise (fun a b => ¬ TakenForOne a b) ∧
      ∀ xs v, Entry.list xs ∈ es → Entry.one (.num v) ∉ es := by
  unfold uniqueEntries
  by_cases hl : es.any Entry.isList = true
  · rw [if_pos hl]
    by_cases hn : es.any (fun e => e.tuple.isNone) = true
    · rw [if_pos hn]
      constructor
      · intro h; cases h
      · rintro ⟨_, h⟩
        simp only [List.any_eq_true] at hl hn
        obtain ⟨a, ha, ha'⟩ := hl
        obtain ⟨b, hb, hb'⟩ := hn
        rcases a with x | xs
        · cases ha'
        rcases b with (s | v) | ys
        · simp [Entry.tuple] at hb'
        · exact absurd hb (h _ _ ha)
        · simp [Entry.tuple] at hb'
    · rw [if_neg hn]
      have hn' : ∀ e ∈ es, e.tuple ≠ none := by
        intro e he h0
        exact hn (List.any_eq_true.2 ⟨e, he, by simp [h0]⟩)
      have hmix : ∀ xs v, Entry.list xs ∈ es → Entry.one (.num v) ∉ es := fun _ v _ h => hn' _ h rfl
      have hp : (es.map Entry.tuple).Nodup ↔ es.Pairwise (fun a b => ¬ TakenForOne a b) := by
        unfold List.Nodup
        rw [List.pairwise_map]
        constructor
        · intro h
          exact h.imp_of_mem (fun {a b} ha hb hab hc => hab ((tuple_eq (hn' a ha)).2 hc))
        · intro h
          exact h.imp_of_mem (fun {a b} ha hb hab hc => hab ((tuple_eq (hn' a ha)).1 hc))
      by_cases hd : (es.map Entry.tuple).Nodup
      · simp only [hd, decide_true, if_true, true_iff]
        exact ⟨hp.1 hd, hmix⟩
      · simp only [hd, decide_false, Bool.false_eq_true, if_false, reduceCtorEq, false_iff]
        exact fun h => hd (hp.2 h.1)
  · rw [if_neg hl]
    have hl' : ∀ e ∈ es, e.isList = false := by
      intro e he
      cases h : e.isList
      · rfl
      · exact absurd (List.any_eq_true.2 ⟨e, he, h⟩) hl
    have hmix : ∀ xs v, Entry.list xs ∈ es → Entry.one (.num v) ∉ es := fun xs v h => by
      have := hl' _ h; cases this
    have hp : es.Nodup ↔ es.Pairwise (fun a b => ¬ TakenForOne a b) := by
      unfold List.Nodup
      constructor
      · intro h
        refine h.imp_of_mem (fun {a b} ha hb hab hc => hab ?_)
        rcases a with x | xs
        · exact (taken_one (hl' b hb)).1 hc
        · have := hl' _ ha; cases this
      · intro h
        refine h.imp (fun {a b} hab hc => hab ?_)
        subst hc; exact .same _
    by_cases hd : es.Nodup
    · simp only [hd, decide_true, if_true, true_iff]
      exact ⟨hp.1 hd, hmix⟩
    · simp only [hd, decide_false, Bool.false_eq_true, if_false, reduceCtorEq, false_iff]
      exact fun h => hd (hp.2 h.1)

theorem entries_ok (es : List (Entry V)) :
    es.all entryOk = true ↔ ∀ xs, Entry.list xs ∈ es → xs ≠ [] ∧ xs.Nodup := by
  rw [List.all_eq_true]
  constructor
  · intro h xs hx
    have := h _ hx
    simpa [entryOk, List.isEmpty_iff] using this
  · intro h e he
    rcases e with x | xs
    · rfl
    · simpa [entryOk, List.isEmpty_iff] using h xs he

theorem index_iff (i : Index V) : checkIndex i = .ok () ↔
    i.entries ≠ [] ∧ (∀ xs, Entry.list xs ∈ i.entries → xs ≠ [] ∧ xs.Nodup) ∧
      i.entries.Pairwise (fun a b => ¬ TakenForOne a b) ∧
      ∀ xs v, Entry.list xs ∈ i.entries → Entry.one (.num v) ∉ i.entries := by
  cases i with
  | one x => simp [checkIndex, Index.entries]
  | list es =>
    simp only [checkIndex, Index.entries]
    by_cases h1 : es.all entryOk = true
    · rw [h1]
      have h1' := (entries_ok es).1 h1
      simp only [Bool.not_true, Bool.false_eq_true, if_false]
      cases h2 : uniqueEntries es with
      | error e =>
        simp only [reduceCtorEq, false_iff]
        rintro ⟨_, _, h3⟩
        rw [(unique_iff es).2 h3] at h2; cases h2
      | ok u =>
        have h3 := (unique_iff es).1 h2
        cases es with
        | nil => simp
        | cons e es => simp only [List.isEmpty_cons, Bool.false_eq_true, if_false, true_iff]; exact ⟨by simp, h1', h3⟩
    · have h1' : es.all entryOk = false := by simpa using h1
      rw [h1']
      simp only [Bool.not_false, if_true, reduceCtorEq, false_iff]
      rintro ⟨_, h, _⟩
      exact h1 ((entries_ok es).2 h)

/-- What the schema accepts. -/
theorem C110_valid (k : Grammar.Classes) (item : Bool) (d : Definition V) :
    validate k item d = .ok () ↔ Valid k item d := by
  have hd : dataOk d.data = true ↔ ∀ xs, d.data = .list xs → xs ≠ [] := by
    cases d.data with
    | one x => simp [dataOk]
    | list xs => simp [dataOk, List.isEmpty_iff]
  have hf : (item && forbiddenDims d.dims) = false ↔ (item = true → "techs" ∉ d.dims ∧ "nodes" ∉ d.dims) := by
    cases item
    · simp
    · simp only [forbiddenDims, Bool.true_and, List.any_eq_false, Bool.or_eq_true, beq_iff_eq, true_implies]
      constructor
      · intro h
        exact ⟨fun h1 => h _ h1 (.inl rfl), fun h1 => h _ h1 (.inr rfl)⟩
      · rintro ⟨h1, h2⟩ x hx (rfl | rfl)
        · exact h1 hx
        · exact h2 hx
  have hn : dimsOk k d.dims = true ↔ d.dims ≠ [] ∧ d.dims.Nodup ∧ ∀ n ∈ d.dims, Grammar.attrStr k n.toList = true := by
    simp only [dimsOk, Bool.and_eq_true, Bool.not_eq_true', List.all_eq_true, decide_eq_true_eq, List.isEmpty_eq_false_iff]
    tauto
  unfold validate
  cases hi : checkIndex d.index with
  | error e =>
    have : ¬ Valid k item d := fun v => by
      rw [(index_iff d.index).2 ⟨v.indexed, v.once, v.apart, v.unmixed⟩] at hi
      cases hi
    cases e <;> simp [this]
  | ok u =>
    obtain ⟨i1, i2, i3, i4⟩ := (index_iff d.index).1 hi
    simp only
    split
    · rename_i h
      simp only [reduceCtorEq, false_iff]
      intro v
      rw [hd.2 v.data, hf.2 v.own, hn.2 v.named] at h
      simp at h
    · rename_i h
      simp only [true_iff]
      simp only [Bool.or_eq_true, Bool.not_eq_true', not_or, Bool.not_eq_false] at h
      obtain ⟨⟨h1, h2⟩, h3⟩ := h
      exact ⟨hd.1 h1, hn.1 h3, hf.1 (by simpa using h2), i1, i2, i3, i4⟩

theorem index_items (ctx : Ctx V) (i : Index V) :
    ModelData.indexItems ctx (some i.datum) = i.entries.map (fun e => e.labs.map (fun x => ctx.label x.scalar)) := by
  cases i with
  | one x => rfl
  | list es =>
    simp only [Index.datum, ModelData.indexItems, Index.entries, List.map_map]
    apply List.map_congr_left
    intro e _
    cases e <;> simp [Entry.scalars, Entry.labs, Function.comp]

theorem dim_names (ctx : Ctx V) (hs : ∀ s, ctx.label (.str s) = s) (ds : List String) :
    ModelData.dimNames ctx (some (.list (ds.map (fun n => some (.str n))))) = ds := by
  unfold ModelData.dimNames ModelData.listify
  simp only [List.filterMap_map]
  induction ds with
  | nil => rfl
  | cons d ds ih => simp [hs] at ih ⊢

theorem labs_inj {α β : Type} (f : α → β) : ∀ (l m : List α), (∀ x ∈ l, ∀ y ∈ m, f x = f y → x = y) →
    l.map f = m.map f → l = m
  | [], [], _, _ => rfl
  | [], _ :: _, _, h => by simp at h
  | _ :: _, [], _, h => by simp at h
  | x :: l, y :: m, hf, h => by
    simp only [List.map_cons, List.cons.injEq] at h
    rw [hf x (by simp) y (by simp) h.1,
      labs_inj f l m (fun a ha b hb => hf a (by simp [ha]) b (by simp [hb])) h.2]

/-- What can be loaded: if texts are their own labels and what is in the index has a label of its own, a definition is loaded
exactly if lengths fit and no entry is there twice. -/
theorem C110_loaded (ctx : Ctx V) (name : Key) (d : Definition V) (hs : ∀ s, ctx.label (.str s) = s)
    (hl : ∀ e ∈ d.index.entries, ∀ e' ∈ d.index.entries, ∀ x ∈ e.labs, ∀ y ∈ e'.labs,
      ctx.label x.scalar = ctx.label y.scalar → x = y) :
    (∃ p, prepare ctx name (.dict d.toDef) = .ok p) ↔ Fits ctx.broadcast d := by
  have hnd : (d.index.entries.map (fun e => e.labs.map (fun x => ctx.label x.scalar))).Nodup ↔
      (d.index.entries.map Entry.labs).Nodup := by
    unfold List.Nodup
    rw [List.pairwise_map, List.pairwise_map]
    constructor
    · intro h
      exact h.imp (fun {a b} hab hc => hab (by rw [hc]))
    · intro h
      exact h.imp_of_mem (fun {a b} ha hb hab hc =>
        hab (labs_inj _ a.labs b.labs (fun x hx y hy => hl a ha b hb x hx y hy) hc))
  have hall : ((d.index.entries.map (fun e => e.labs.map (fun x => ctx.label x.scalar))).all
      (fun i => decide (i.length = d.dims.length))) = true ↔ ∀ e ∈ d.index.entries, e.labs.length = d.dims.length := by
    simp [List.all_eq_true]
  have e1 : ModelData.leafOf d.toDef "data" = .ok d.data.datum := by simp [Definition.toDef, ModelData.leafOf, Dict.get1]
  have e2 : ModelData.leafOf d.toDef "index" = .ok (some d.index.datum) := by
    simp [Definition.toDef, ModelData.leafOf, Dict.get1]
  have e3 : ModelData.leafOf d.toDef "dims" = .ok (some (.list (d.dims.map (fun n => some (.str n))))) := by
    simp [Definition.toDef, ModelData.leafOf, Dict.get1]
  simp only [prepare, ModelData.prepareIndexed, e1, e2, e3, index_items, dim_names ctx hs, List.length_map]
  have hfit : Fits ctx.broadcast d ↔
      (((d.index.entries.map (fun e => e.labs.map (fun x => ctx.label x.scalar))).all
        (fun i => decide (i.length = d.dims.length)) &&
        decide (d.index.entries.map (fun e => e.labs.map (fun x => ctx.label x.scalar))).Nodup) = true) ∧
      (∀ xs, d.data = .list xs → xs.length = d.index.entries.length) ∧
      (∀ x, d.data = .one (some x) → ctx.broadcast = true ∨ d.index.entries.length = 1) ∧
      (d.data = .one none → ctx.broadcast = true ∨ d.index.entries.length = 0) := by
    rw [Bool.and_eq_true, hall, decide_eq_true_eq, hnd]
    constructor
    · intro f; exact ⟨⟨f.labelled, f.once⟩, f.each, f.single, f.nothing⟩
    · rintro ⟨⟨a, b⟩, c, e, g⟩; exact ⟨a, b, c, e, g⟩
  rw [hfit]
  generalize ((d.index.entries.map (fun e => e.labs.map (fun x => ctx.label x.scalar))).all
        (fun i => decide (i.length = d.dims.length)) &&
        decide (d.index.entries.map (fun e => e.labs.map (fun x => ctx.label x.scalar))).Nodup) = c
  generalize hlen : d.index.entries.length = n
  rcases hd : d.data with (_ | x) | xs
  · have hz : ((0 : Nat) ≠ n) ↔ ¬ n = 0 := by omega
    by_cases h0 : n = 0 <;> cases hb : ctx.broadcast <;> cases c <;>
      simp [Data.datum, ModelData.listify, ModelData.dataItems, h0, hz]
    all_goals (first | omega | (subst h0; simp) | skip)
  · have hz : ((1 : Nat) ≠ n) ↔ ¬ n = 1 := by omega
    by_cases h0 : n = 1 <;> cases hb : ctx.broadcast <;> cases c <;>
      simp [Data.datum, ModelData.listify, ModelData.dataItems, h0, hz]
    all_goals (first | omega | (subst h0; simp) | skip)
  · by_cases h0 : xs.length = n <;> cases hb : ctx.broadcast <;> cases c <;>
      simp [Data.datum, ModelData.listify, ModelData.dataItems, h0]

/-- The dimensions of what is loaded are those of the definition. -/
theorem C110_dims (ctx : Ctx V) (name : Key) (d : Definition V) (hs : ∀ s, ctx.label (.str s) = s)
    (p : ModelData.Prepared V) (h : prepare ctx name (.dict d.toDef) = .ok p) : p.dims = d.dims := by
  have e1 : ModelData.leafOf d.toDef "data" = .ok d.data.datum := by simp [Definition.toDef, ModelData.leafOf, Dict.get1]
  have e2 : ModelData.leafOf d.toDef "index" = .ok (some d.index.datum) := by
    simp [Definition.toDef, ModelData.leafOf, Dict.get1]
  have e3 : ModelData.leafOf d.toDef "dims" = .ok (some (.list (d.dims.map (fun n => some (.str n))))) := by
    simp [Definition.toDef, ModelData.leafOf, Dict.get1]
  simp only [prepare, ModelData.prepareIndexed, e1, e2, e3, dim_names ctx hs] at h
  split at h
  · cases h
  · split at h
    · cases h
    · split at h
      · cases h; rfl
      · cases h

/-- Data of a technology or node that passes validation and is loaded has no dimension twice, after that of the
technology or node is added. -/
theorem C110_own_dimension (k : Grammar.Classes) (ctx : Ctx V) (name item dim : Key) (d : Definition V)
    (hs : ∀ s, ctx.label (.str s) = s) (p : ModelData.Prepared V) (hd : dim = "techs" ∨ dim = "nodes")
    (hv : validate k true d = .ok ()) (h : prepare ctx name (.dict d.toDef) = .ok p) :
    (ModelData.atItem dim item p).dims.Nodup := by
  have v := (C110_valid k true d).1 hv
  show (dim :: p.dims).Nodup
  rw [C110_dims ctx name d hs p h, List.nodup_cons]
  refine ⟨?_, v.named.2.1⟩
  rcases hd with rfl | rfl
  · exact (v.own rfl).1
  · exact (v.own rfl).2

/-- Definitions that pass validation are loaded if their lengths fit, and single labels and lists are not mixed. -/
theorem C110_loads_partial (k : Grammar.Classes) (item : Bool) (ctx : Ctx V) (name : Key) (d : Definition V)
    (hs : ∀ s, ctx.label (.str s) = s)
    (hl : ∀ e ∈ d.index.entries, ∀ e' ∈ d.index.entries, ∀ x ∈ e.labs, ∀ y ∈ e'.labs,
      ctx.label x.scalar = ctx.label y.scalar → x = y) (hv : validate k item d = .ok ())
    (h1 : ∀ e ∈ d.index.entries, e.labs.length = d.dims.length)
    (h2 : (∀ xs, d.data = .list xs → xs.length = d.index.entries.length) ∧
      (∀ x, d.data = .one x → ctx.broadcast = true ∨ d.index.entries.length = 1 ∧ x ≠ none))
    (h3 : 2 ≤ d.dims.length ∨ ∀ xs, Entry.list xs ∉ d.index.entries) :
    ∃ p, prepare ctx name (.dict d.toDef) = .ok p := by
  have v := (C110_valid k item d).1 hv
  refine (C110_loaded ctx name d hs hl).2 ⟨h1, ?_, h2.1, fun x hx => (h2.2 _ hx).imp_right (·.1), fun hx => ?_⟩
  · unfold List.Nodup
    rw [List.pairwise_map]
    refine v.apart.imp_of_mem (fun {a b} ha hb hab hc => hab ?_)
    rcases h3 with h3 | h3
    · rcases a with x | xs
      · have := h1 _ ha; simp only [Entry.labs, List.length_singleton] at this; omega
      · rcases b with y | ys
        · have := h1 _ hb; simp only [Entry.labs, List.length_singleton] at this; omega
        · simp only [Entry.labs] at hc; subst hc; exact .same _
    · rcases a with x | xs
      · rcases b with y | ys
        · simp only [Entry.labs, List.cons.injEq, and_true] at hc; subst hc; exact .same _
        · exact absurd hb (h3 _)
      · exact absurd ha (h3 _)
  · rcases h2.2 _ hx with h | h
    · exact .inl h
    · exact absurd rfl h.2

/-- An entry that has one label for two dimensions is rejected. -/
theorem C110_repeated (k : Grammar.Classes) (item : Bool) (d : Definition V) (xs : List (Lab V))
    (h : Entry.list xs ∈ d.index.entries) (hx : ¬ xs.Nodup) : validate k item d ≠ .ok () :=
  fun hv => hx (((C110_valid k item d).1 hv).once xs h).2

/-- A number beside a list of labels is not reported as an error of validation: `TypeError`. -/
theorem C110_mixed (k : Grammar.Classes) (item : Bool) (d : Definition V) (es : List (Entry V)) (xs : List (Lab V)) (v : V)
    (hd : d.index = .list es) (h1 : ∀ ys, Entry.list ys ∈ es → ys ≠ [] ∧ ys.Nodup) (h2 : Entry.list xs ∈ es)
    (h3 : Entry.one (.num v) ∈ es) : validate k item d = .error .typeError := by
  have hu : uniqueEntries es = .error .typeError := by
    unfold uniqueEntries
    rw [if_pos (List.any_eq_true.2 ⟨_, h2, rfl⟩), if_pos (List.any_eq_true.2 ⟨_, h3, rfl⟩)]
  have hc : checkIndex d.index = .error .typeError := by
    rw [hd]
    simp only [checkIndex, (entries_ok es).2 h1, hu, Bool.not_true, Bool.false_eq_true, if_false]
  simp [validate, hc]

/-! ### Nodes -/

/-- The coordinates of a node are accepted exactly if there are none, or both are integers or both floats, in range. -/
theorem C110_node (lat lon : Coord) : validateNode lat lon = .ok () ↔
    (lat = .none ∧ lon = .none) ∨
    (lat.Given 90 ∧ lon.Given 180 ∧ ((∃ i j, lat = .int i ∧ lon = .int j) ∨ ∃ q r, lat = .flt q ∧ lon = .flt r)) := by
  unfold validateNode
  cases lat <;> cases lon <;>
    simp only [Coord.within, Coord.sameType, Coord.Given, Bool.not_true, Bool.not_false, Bool.or_self,
      Bool.or_false, Bool.false_or, Bool.or_true, Bool.false_eq_true, if_false, if_true, reduceCtorEq, and_self, and_false, false_and,
      or_false, false_or, true_iff, Bool.not_and, exists_false, iff_false, ite_self, not_false_eq_true, true_or, false_iff,
      Coord.int.injEq, Coord.flt.injEq, exists_eq_left', exists_and_left, exists_eq', and_true]
  case int.int i j =>
    by_cases a : -90 ≤ (i : Rat) <;> by_cases b : (i : Rat) ≤ 90 <;> by_cases c : -180 ≤ (j : Rat) <;>
      by_cases e : (j : Rat) ≤ 180 <;> simp [a, b, c, e]
  case flt.flt i j =>
    by_cases a : -90 ≤ i <;> by_cases b : i ≤ 90 <;> by_cases c : -180 ≤ j <;>
      by_cases e : j ≤ 180 <;> simp [a, b, c, e]
  all_goals (split <;> simp)

/-- An integer and a float are rejected as the coordinates of a node, wherever it is. -/
theorem C110_node_types (i : Int) (q : Rat) :
    validateNode (.int i) (.flt q) ≠ .ok () ∧ validateNode (.flt q) (.int i) ≠ .ok () := by
  constructor <;> (rw [ne_eq, C110_node]; rintro (⟨h, _⟩ | ⟨_, _, ⟨_, _, h, h'⟩ | ⟨_, _, h, h'⟩⟩) <;> cases h <;> cases h')

end

/-! ### Demo -/

section DataDemo

deriving instance DecidableEq for ModelData.Prepared

def dataCtx : Ctx Rat where
  pivot _ := none
  broadcast := false
  label
    | .str s => s
    | .num q => "number " ++ toString q.num ++ "/" ++ toString q.den
    | .bool b => if b then "True value" else "False value"
  nonzero q := q != 0

/-- Two values for two technologies. -/
def twoTechs : Definition Rat := ⟨.list [some (.num 1), some (.num 2)], ["techs", "carriers"],
  .list [.list [.str "pv", .str "power"], .list [.str "chp", .str "heat"]]⟩

example : validate Grammar.asciiClasses false twoTechs = .ok () := by decide +kernel
example : ∃ p, prepare dataCtx "x" (.dict twoTechs.toDef) = .ok p :=
  C110_loads_partial Grammar.asciiClasses false dataCtx "x" twoTechs (fun _ => rfl) (by decide +kernel) (by decide +kernel)
    (by decide +kernel) ⟨fun xs h => by cases h; rfl, fun x h => by cases h⟩ (.inl (by decide))

/-- Three values for two entries pass validation, and cannot be loaded. -/
theorem C110_lengths :
    let d : Definition Rat := ⟨.list [some (.num 1), some (.num 2), some (.num 3)], ["techs"],
      .list [.one (.str "pv"), .one (.str "chp")]⟩
    validate Grammar.asciiClasses false d = .ok () ∧ prepare dataCtx "x" (.dict d.toDef) = .error .modelError := by
  constructor <;> decide +kernel

/-- Two labels for one dimension pass validation, and cannot be loaded. -/
theorem C110_labels :
    let d : Definition Rat := ⟨.list [some (.num 1)], ["techs"], .list [.list [.str "pv", .str "power"]]⟩
    validate Grammar.asciiClasses false d = .ok () ∧ prepare dataCtx "x" (.dict d.toDef) = .error .valueError := by
  constructor <;> decide +kernel

/-- A label, and again in a list, pass validation, and cannot be loaded. -/
theorem C110_twice :
    let d : Definition Rat := ⟨.list [some (.num 1), some (.num 2)], ["techs"],
      .list [.one (.str "pv"), .list [.str "pv"]]⟩
    validate Grammar.asciiClasses false d = .ok () ∧ prepare dataCtx "x" (.dict d.toDef) = .error .valueError := by
  constructor <;> decide +kernel

/-- A technology and a carrier of one name: rejected, although the data could be loaded. -/
theorem C110_same_label :
    let d : Definition Rat := ⟨.list [some (.num 1)], ["techs", "carriers"], .list [.list [.str "heat", .str "heat"]]⟩
    validate Grammar.asciiClasses false d = .error .valueError ∧
      prepare dataCtx "x" (.dict d.toDef) = .ok ⟨["techs", "carriers"], [(["heat", "heat"], some (.num 1))]⟩ := by
  constructor <;> decide +kernel

/-- A node at 50 degrees north and 7.5 degrees east is rejected; at 50.0 degrees it is not. -/
theorem C110_mixed_node : validateNode (.int 50) (.flt (15 / 2)) = .error .valueError ∧
    validateNode (.flt 50) (.flt (15 / 2)) = .ok () := by
  constructor <;> decide +kernel

example : validate Grammar.asciiClasses true twoTechs = .error .valueError := by decide +kernel

end DataDemo

end DataSchema
end Calliope
