import Verif.Spec.MathDoc
import Mathlib.Data.List.Basic
import Mathlib.Data.List.Nodup
import Mathlib.Data.List.Induction

/-!
# Lemmas about the math documentation
-/

namespace Calliope
namespace MathDoc

/-! ## `put` -/

theorem put_fresh {α β : Type} [DecidableEq α] (l : List (α × β)) (k : α) (v : β)
    (h : k ∉ l.map Prod.fst) : put l k v = l ++ [(k, v)] := by
  induction l with
  | nil => rfl
  | cons x r ih =>
    obtain ⟨k', v'⟩ := x
    simp only [List.map_cons, List.mem_cons, not_or] at h
    simp only [put]
    rw [if_neg (fun e => h.1 e.symm), ih h.2]
    rfl

theorem put_names {α β : Type} [DecidableEq α] (l : List (α × β)) (k : α) (v : β) :
    (put l k v).map Prod.fst =
      if k ∈ l.map Prod.fst then l.map Prod.fst else l.map Prod.fst ++ [k] := by
  induction l with
  | nil => simp [put]
  | cons x r ih =>
    obtain ⟨k', v'⟩ := x
    simp only [put]
    by_cases e : k' = k
    · subst e; simp
    · rw [if_neg e]
      simp only [List.map_cons, ih, List.mem_cons]
      have e' : ¬ k = k' := fun h => e h.symm
      simp only [e', false_or]
      split <;> simp

theorem put_nodup {α β : Type} [DecidableEq α] (l : List (α × β)) (k : α) (v : β)
    (h : (l.map Prod.fst).Nodup) : ((put l k v).map Prod.fst).Nodup := by
  rw [put_names]
  split
  · exact h
  · rename_i hk
    rw [List.nodup_append]
    refine ⟨h, List.nodup_singleton _, ?_⟩
    intro a ha b hb
    rw [List.mem_singleton] at hb
    subst hb
    exact fun e => hk (e ▸ ha)

theorem put_lookup {α β : Type} [DecidableEq α] [BEq α] [LawfulBEq α] (l : List (α × β)) (k k' : α) (v : β) :
    (put l k v).lookup k' = if k' = k then some v else l.lookup k' := by
  induction l with
  | nil =>
    by_cases e : k' = k
    · subst e; simp [put]
    · simp [put, e, List.lookup_cons, beq_false_of_ne e]
  | cons x r ih =>
    obtain ⟨k₀, v₀⟩ := x
    simp only [put]
    by_cases e₀ : k₀ = k
    · rw [if_pos e₀]
      subst e₀
      by_cases e : k' = k₀
      · subst e; simp
      · simp [List.lookup_cons, beq_false_of_ne e, e]
    · rw [if_neg e₀]
      by_cases e : k' = k₀
      · subst e; simp [e₀]
      · simp only [List.lookup_cons, beq_false_of_ne e]
        exact ih

theorem lookup_of_mem {α β : Type} [DecidableEq α] [BEq α] [LawfulBEq α] (l : List (α × β))
    (hn : (l.map Prod.fst).Nodup) (k : α) (v : β) : l.lookup k = some v ↔ (k, v) ∈ l := by
  induction l with
  | nil => simp
  | cons x r ih =>
    obtain ⟨k₀, v₀⟩ := x
    rw [List.map_cons, List.nodup_cons] at hn
    by_cases e : k = k₀
    · subst e
      simp only [List.lookup_cons, beq_self_eq_true, List.mem_cons, Prod.mk.injEq, true_and]
      constructor
      · intro h; left; exact (Option.some.inj h).symm
      · rintro (h | h)
        · rw [h]
        · exact absurd (List.mem_map.2 ⟨(k, v), h, rfl⟩) hn.1
    · simp only [List.lookup_cons, beq_false_of_ne e, List.mem_cons, Prod.mk.injEq, e, false_and,
        false_or]
      exact ih hn.2

/-! ## References -/

theorem mem_setAdd (l : List String) (n b : String) : b ∈ setAdd l n ↔ b ∈ l ∨ b = n := by
  unfold setAdd
  split
  · rename_i h
    rw [List.contains_iff_mem] at h
    constructor
    · exact Or.inl
    · rintro (h' | rfl)
      · exact h'
      · exact h
  · simp

theorem setAdd_setAdd (l : List String) (n : String) : setAdd (setAdd l n) n = setAdd l n := by
  have h : n ∈ setAdd l n := (mem_setAdd l n n).2 (Or.inr rfl)
  show (if (setAdd l n).contains n then setAdd l n else setAdd l n ++ [n]) = setAdd l n
  rw [if_pos (List.contains_iff_mem.2 h)]

theorem note_names (data : List (String × Entry)) (n : String) (refs : List String) :
    (note data n refs).map Prod.fst = data.map Prod.fst := by
  unfold note
  rw [List.map_map]
  rfl

theorem note_note (data : List (String × Entry)) (n : String) (r₁ r₂ : List String) :
    note (note data n r₁) n r₂ = note data n (r₁ ++ r₂) := by
  unfold note
  rw [List.map_map]
  apply List.map_congr_left
  rintro ⟨a, e⟩ -
  simp only [Function.comp, List.contains_append]
  cases h₁ : r₁.contains a <;> cases h₂ : r₂.contains a <;> simp [setAdd_setAdd]

theorem note_nil (data : List (String × Entry)) (n : String) : note data n [] = data := by
  unfold note
  simp

theorem mem_note (data : List (String × Entry)) (n : String) (refs : List String) (a : String)
    (e : Entry) (h : (a, e) ∈ note data n refs) :
    ∃ e', (a, e') ∈ data ∧ e.group = e'.group ∧
      ∀ b, b ∈ e.usedIn ↔ b ∈ e'.usedIn ∨ (b = n ∧ a ∈ refs) := by
  unfold note at h
  rw [List.mem_map] at h
  obtain ⟨⟨a', e'⟩, hm, heq⟩ := h
  simp only [Prod.mk.injEq] at heq
  obtain ⟨rfl, rfl⟩ := heq
  refine ⟨e', hm, ?_, ?_⟩
  · split <;> rfl
  · intro b
    by_cases hc : refs.contains a' = true
    · rw [if_pos hc]
      simp only [mem_setAdd]
      rw [List.contains_iff_mem] at hc
      simp [hc]
    · rw [if_neg hc]
      rw [List.contains_iff_mem] at hc
      simp [hc]

/-! ## Adding a component of a new name -/

/-- The component leaves an array in the dataset. -/
def registered (d : Decl) : Bool :=
  match d.group with
  | .variables => d.active || d.shell
  | .piecewise => true
  | _ => d.active

/-- The names recorded as referred to. -/
def recorded (d : Decl) : List String :=
  match d.group with
  | .parameters => []
  | .lookups => []
  | .variables =>
      (if d.active then d.topRefs else []) ++ lessLetters (d.parts.flatMap Eqn.refs) d.name
  | .piecewise => d.topRefs ++ d.parts.flatMap Eqn.refs
  | _ => equationRefs d

/-- The string rendered. -/
def textOf (all : Bool) (d : Decl) : Option (List String) :=
  match d.group with
  | .parameters => none
  | .lookups => none
  | .variables =>
      if shows all (d.active && d.top) d.active then some (d.parts.map Eqn.text) else none
  | .piecewise => if shows all d.top d.active then some (d.parts.map Eqn.text) else none
  | _ => if shows all (equationsValid d) d.active then some (equationTexts all d) else none

/-- Deactivated postprocessed expressions. -/
def isDead (d : Decl) : Bool := d.group == .postprocessed && !d.active

/-- What adding does, for a new name. -/
def addFresh (all : Bool) (s : State) (d : Decl) : State :=
  ⟨if registered d then note (s.data ++ [(d.name, ⟨some d.group, []⟩)]) d.name (recorded d)
    else s.data,
   if registered d && !isInput d.group then put s.strings (d.group, d.name) (textOf all d)
    else s.strings,
   if isDead d then s.dead ++ [d.name] else s.dead⟩

theorem lookup_none_of_not_mem {α β : Type} [DecidableEq α] [BEq α] [LawfulBEq α] (l : List (α × β)) (k : α)
    (h : k ∉ l.map Prod.fst) : l.lookup k = none := by
  induction l with
  | nil => rfl
  | cons x r ih =>
    obtain ⟨k₀, v₀⟩ := x
    simp only [List.map_cons, List.mem_cons, not_or] at h
    simp only [List.lookup_cons, beq_false_of_ne h.1]
    exact ih h.2

theorem isVariable_note (data : List (String × Entry)) (n : String) (refs : List String)
    (st : List ((Grp × String) × Option (List String))) (dd : List String)
    (h : n ∉ data.map Prod.fst) :
    isVariable ⟨note (data ++ [(n, ⟨some .variables, []⟩)]) n refs, st, dd⟩ n = true := by
  unfold isVariable
  have : ∃ e : Entry, (note (data ++ [(n, ⟨some .variables, []⟩)]) n refs).lookup n = some e ∧
      e.group = some .variables := by
    induction data with
    | nil =>
      simp only [note, List.nil_append, List.map_cons, List.map_nil, List.lookup_cons,
        beq_self_eq_true]
      refine ⟨_, rfl, ?_⟩
      split <;> rfl
    | cons x r ih =>
      obtain ⟨k₀, v₀⟩ := x
      simp only [List.map_cons, List.mem_cons, not_or] at h
      obtain ⟨e, he, hg⟩ := ih h.2
      refine ⟨e, ?_, hg⟩
      simp only [note, List.cons_append, List.map_cons, List.lookup_cons, beq_false_of_ne h.1]
      exact he
  obtain ⟨e, he, hg⟩ := this
  simp only [he, hg, beq_self_eq_true]

theorem add_fresh (all : Bool) (s : State) (d : Decl) (h : d.name ∉ s.data.map Prod.fst) :
    add all s d = addFresh all s d := by
  obtain ⟨g, n, act, sh, top, tr, eqs, parts⟩ := d
  obtain ⟨data, st, dd⟩ := s
  simp only at h
  have hl := lookup_none_of_not_mem data n h
  cases g
  case parameters =>
    cases act <;> simp [add, addInput, addFresh, registered, recorded, isInput, isDead,
      put_fresh _ _ _ h, note_nil]
  case lookups =>
    cases act <;> simp [add, addInput, addFresh, registered, recorded, isInput, isDead,
      put_fresh _ _ _ h, note_nil]
  case «variables» =>
    cases act
    · cases sh
      · simp [add, addVariable, baseVariable, isVariable, hl, addFresh, registered, isDead]
      · simp only [add, addVariable, baseVariable, addToDataset, put_fresh _ _ _ h,
          Bool.false_eq_true, if_false, if_true]
        rw [if_pos (isVariable_note data n [] st dd h)]
        simp [drawVariable, setString, addFresh, registered, recorded, textOf, isInput, isDead,
          note_note]
    · simp only [add, addVariable, baseVariable, addToDataset, put_fresh _ _ _ h, if_true]
      rw [if_pos (isVariable_note data n tr st dd h)]
      simp [drawVariable, setString, addFresh, registered, recorded, textOf, isInput, isDead,
        note_note]
  case piecewise =>
    simp [add, addPiecewise, addToDataset, setString, addFresh, registered, recorded, textOf,
      isInput, isDead, put_fresh _ _ _ h]
  case postprocessed =>
    cases act <;> simp [add, addEquations, addToDataset, setString, addFresh, registered, recorded,
      textOf, isInput, isDead, put_fresh _ _ _ h]
  all_goals
    cases act <;> simp [add, addEquations, addToDataset, setString, addFresh, registered, recorded,
      textOf, isInput, isDead, put_fresh _ _ _ h]

theorem added_snoc (all : Bool) (ds : List Decl) (d : Decl) :
    added all (ds ++ [d]) = add all (added all ds) d := by
  unfold added
  rw [List.foldl_append]
  rfl

theorem addFresh_names (all : Bool) (s : State) (d : Decl) :
    (addFresh all s d).data.map Prod.fst =
      s.data.map Prod.fst ++ (if registered d then [d.name] else []) := by
  unfold addFresh
  simp only
  split
  · rw [note_names]; simp
  · simp

theorem earlier_snoc (ds : List Decl) (d x y : Decl) :
    Earlier (ds ++ [d]) x y ↔ Earlier ds x y ∨ (x ∈ ds ∧ y = d) := by
  constructor
  · rintro ⟨l₁, l₂, l₃, h⟩
    rcases List.eq_nil_or_concat l₃ with rfl | ⟨l₃', z, rfl⟩
    · right
      have h' : ds ++ [d] = (l₁ ++ x :: l₂) ++ [y] := by rw [h]; simp
      obtain ⟨h1, h2⟩ := List.append_inj' h' rfl
      refine ⟨?_, ?_⟩
      · rw [h1]; simp
      · simpa using h2.symm
    · left
      have h' : ds ++ [d] = (l₁ ++ x :: (l₂ ++ y :: l₃')) ++ [z] := by rw [h]; simp
      obtain ⟨h1, h2⟩ := List.append_inj' h' rfl
      exact ⟨l₁, l₂, l₃', h1⟩
  · rintro (⟨l₁, l₂, l₃, h⟩ | ⟨h, rfl⟩)
    · exact ⟨l₁, l₂, l₃ ++ [d], by rw [h]; simp⟩
    · obtain ⟨l₁, l₂, rfl⟩ := List.append_of_mem h
      exact ⟨l₁, l₂, [], by simp⟩

theorem Earlier.mem {ds : List Decl} {x y : Decl} (h : Earlier ds x y) : x ∈ ds ∧ y ∈ ds := by
  obtain ⟨l₁, l₂, l₃, rfl⟩ := h
  exact ⟨by simp, by simp⟩

/-! ## The dataset after a build -/

structure Inv (all : Bool) (ds : List Decl) (s : State) : Prop where
  names : s.data.map Prod.fst = (ds.filter registered).map Decl.name
  entry : ∀ a e, (a, e) ∈ s.data → ∃ d ∈ ds, registered d = true ∧ d.name = a ∧
    e.group = some d.group ∧ (a ∈ e.usedIn → a ∈ recorded d) ∧
    ∀ b, b ≠ a → (b ∈ e.usedIn ↔ ∃ y, Earlier ds d y ∧ registered y = true ∧ y.name = b ∧
      a ∈ recorded y)
  strings : ∀ d ∈ ds, stringOf s d.group d.name =
    if registered d && !isInput d.group then textOf all d else none
  fresh : ∀ g n, n ∉ ds.map Decl.name → s.strings.lookup (g, n) = none
  input : ∀ g n, isInput g = true → s.strings.lookup (g, n) = none
  dead : s.dead = (ds.filter isDead).map Decl.name

theorem inv_added (all : Bool) (ds : List Decl) (hn : (ds.map Decl.name).Nodup) :
    Inv all ds (added all ds) := by
  induction ds using List.reverseRecOn with
  | nil => exact ⟨rfl, by simp [added, State.empty], by simp, fun _ _ _ => rfl, fun _ _ _ => rfl,
      rfl⟩
  | append_singleton ds d ih =>
    rw [List.map_append, List.nodup_append] at hn
    obtain ⟨hn₁, -, hn₂⟩ := hn
    have hd : d.name ∉ ds.map Decl.name := fun h => hn₂ _ h _ (by simp) rfl
    have I := ih hn₁
    have hf : d.name ∉ (added all ds).data.map Prod.fst := by
      rw [I.names]
      intro h
      obtain ⟨x, hx, hxn⟩ := List.mem_map.1 h
      exact hd (List.mem_map.2 ⟨x, (List.mem_filter.1 hx).1, hxn⟩)
    rw [added_snoc, add_fresh all _ d hf]
    refine ⟨?_, ?_, ?_, ?_, ?_, ?_⟩
    · rw [addFresh_names, I.names, List.filter_append, List.map_append]
      congr 1
      cases h : registered d <;> simp [h]
    · intro a e hm
      unfold addFresh at hm
      simp only at hm
      by_cases hr : registered d = true
      · rw [if_pos hr] at hm
        obtain ⟨e', hm', hg, hu⟩ := mem_note _ _ _ _ _ hm
        rw [List.mem_append, List.mem_singleton] at hm'
        rcases hm' with hm' | hm'
        · obtain ⟨x, hx, hxr, hxn, hxg, hxs, hxu⟩ := I.entry a e' hm'
          refine ⟨x, List.mem_append_left _ hx, hxr, hxn, by rw [hg, hxg], ?_, ?_⟩
          · intro h
            rcases (hu a).1 h with h | ⟨h, -⟩
            · exact hxs h
            · exact absurd (List.mem_map.2 ⟨x, hx, hxn.trans h⟩) hd
          intro b hb
          rw [hu, hxu b hb]
          constructor
          · rintro (⟨y, hy, h1, h2, h3⟩ | ⟨rfl, h3⟩)
            · exact ⟨y, (earlier_snoc ds d x y).2 (Or.inl hy), h1, h2, h3⟩
            · exact ⟨d, (earlier_snoc ds d x d).2 (Or.inr ⟨hx, rfl⟩), hr, rfl, h3⟩
          · rintro ⟨y, hy, h1, h2, h3⟩
            rcases (earlier_snoc ds d x y).1 hy with hy | ⟨-, rfl⟩
            · exact Or.inl ⟨y, hy, h1, h2, h3⟩
            · exact Or.inr ⟨h2.symm, h3⟩
        · simp only [Prod.mk.injEq] at hm'
          obtain ⟨rfl, rfl⟩ := hm'
          refine ⟨d, by simp, hr, rfl, hg, ?_, ?_⟩
          · intro h
            rcases (hu _).1 h with h | ⟨-, h⟩
            · simp at h
            · exact h
          intro b hb
          rw [hu]
          constructor
          · rintro (h | ⟨h, -⟩)
            · simp at h
            · exact absurd h hb
          · rintro ⟨y, hy, h1, h2, h3⟩
            exfalso
            rcases (earlier_snoc ds d d y).1 hy with hy | ⟨hy, -⟩
            · exact hd (List.mem_map.2 ⟨d, hy.mem.1, rfl⟩)
            · exact hd (List.mem_map.2 ⟨d, hy, rfl⟩)
      · rw [if_neg hr] at hm
        obtain ⟨x, hx, hxr, hxn, hxg, hxs, hxu⟩ := I.entry a e hm
        refine ⟨x, List.mem_append_left _ hx, hxr, hxn, hxg, hxs, ?_⟩
        intro b hb
        rw [hxu b hb]
        constructor
        · rintro ⟨y, hy, h1, h2, h3⟩
          exact ⟨y, (earlier_snoc ds d x y).2 (Or.inl hy), h1, h2, h3⟩
        · rintro ⟨y, hy, h1, h2, h3⟩
          rcases (earlier_snoc ds d x y).1 hy with hy | ⟨-, rfl⟩
          · exact ⟨y, hy, h1, h2, h3⟩
          · exact absurd h1 hr
    · intro x hx
      unfold stringOf addFresh
      simp only
      rw [List.mem_append, List.mem_singleton] at hx
      rcases hx with hx | rfl
      · have hne : x.name ≠ d.name := fun h => hd (List.mem_map.2 ⟨x, hx, h⟩)
        have := I.strings x hx
        unfold stringOf at this
        by_cases hc : (registered d && !isInput d.group) = true
        · rw [if_pos hc, put_lookup, if_neg (fun h => hne (Prod.mk.inj h).2)]
          exact this
        · rw [if_neg hc]
          exact this
      · by_cases hr : (registered x && !isInput x.group) = true
        · rw [if_pos hr, if_pos hr, put_lookup, if_pos rfl]
        · rw [if_neg hr, if_neg hr, I.fresh _ _ hd]
    · intro g n hnn
      unfold addFresh
      simp only
      rw [List.map_append, List.mem_append, not_or] at hnn
      split
      · rw [put_lookup, if_neg, I.fresh g n hnn.1]
        intro h
        exact hnn.2 (by simp [(Prod.mk.inj h).2])
      · exact I.fresh g n hnn.1
    · intro g n hg
      unfold addFresh
      simp only
      split
      · rename_i hc
        rw [put_lookup, if_neg, I.input g n hg]
        intro h
        rw [Bool.and_eq_true] at hc
        rw [← (Prod.mk.inj h).1, hg] at hc
        simp at hc
      · exact I.input g n hg
    · unfold addFresh
      simp only
      rw [List.filter_append, List.map_append, ← I.dead]
      cases h : isDead d <;> simp [h]

/-- Writing the null arrays of names that are new. -/
theorem finish_data (l : List String) : ∀ data : List (String × Entry), l.Nodup →
    (∀ n ∈ l, n ∉ data.map Prod.fst) →
    l.foldl (fun d n => put d n ⟨none, []⟩) data = data ++ l.map (fun n => (n, ⟨none, []⟩)) := by
  induction l with
  | nil => intro data _ _; simp
  | cons n r ih =>
    intro data hn hf
    rw [List.nodup_cons] at hn
    rw [List.foldl_cons, put_fresh _ _ _ (hf n (by simp)), ih _ hn.2]
    · simp
    · intro m hm
      rw [List.map_append, List.mem_append, not_or]
      refine ⟨hf m (List.mem_cons_of_mem _ hm), ?_⟩
      simp only [List.map_cons, List.map_nil, List.mem_singleton]
      rintro rfl
      exact hn.1 hm

theorem dead_not_registered (d : Decl) (h : isDead d = true) : registered d = false := by
  obtain ⟨g, n, act, sh, top, tr, eqs, parts⟩ := d
  cases g <;> cases act <;> simp_all [isDead, registered]

theorem build_data (all : Bool) (ds : List Decl) (hn : (ds.map Decl.name).Nodup) :
    (build all ds).data = (added all ds).data ++
      ((ds.filter isDead).map Decl.name).map (fun n => (n, (⟨none, []⟩ : Entry))) := by
  have I := inv_added all ds hn
  unfold build finish
  simp only
  rw [finish_data, I.dead]
  · rw [I.dead]
    exact hn.sublist (List.Sublist.map _ List.filter_sublist)
  · intro n hd h
    rw [I.dead] at hd
    rw [I.names] at h
    obtain ⟨x, hx, hxn⟩ := List.mem_map.1 hd
    obtain ⟨y, hy, hyn⟩ := List.mem_map.1 h
    rw [List.mem_filter] at hx hy
    have : x = y := List.inj_on_of_nodup_map hn hx.1 hy.1 (hxn.trans hyn.symm)
    subst this
    rw [dead_not_registered x hx.2] at hy
    exact absurd hy.2 (by simp)

theorem build_nodup (all : Bool) (ds : List Decl) (hn : (ds.map Decl.name).Nodup) :
    ((build all ds).data.map Prod.fst).Nodup := by
  have I := inv_added all ds hn
  rw [build_data all ds hn, List.map_append, I.names, List.map_map]
  have e : (Prod.fst ∘ fun n : String => (n, (⟨none, []⟩ : Entry))) = id := rfl
  rw [e, List.map_id, List.nodup_append]
  refine ⟨hn.sublist (List.Sublist.map _ List.filter_sublist),
    hn.sublist (List.Sublist.map _ List.filter_sublist), ?_⟩
  intro a ha b hb hab
  subst hab
  obtain ⟨x, hx, hxn⟩ := List.mem_map.1 ha
  obtain ⟨y, hy, hyn⟩ := List.mem_map.1 hb
  rw [List.mem_filter] at hx hy
  have : x = y := List.inj_on_of_nodup_map hn hx.1 hy.1 (hxn.trans hyn.symm)
  subst this
  rw [dead_not_registered x hy.2] at hx
  exact absurd hx.2 (by simp)

theorem build_strings (all : Bool) (ds : List Decl) (g : Grp) (n : String) :
    stringOf (build all ds) g n = stringOf (added all ds) g n := rfl

/-- The dataset of a document, by definition. -/
theorem build_entry (all : Bool) (ds : List Decl) (hn : (ds.map Decl.name).Nodup) (a : String)
    (e : Entry) (g : Grp) (hm : (a, e) ∈ (build all ds).data) (hg : e.group = some g) :
    ∃ d ∈ ds, registered d = true ∧ d.name = a ∧ d.group = g ∧ (a ∈ e.usedIn → a ∈ recorded d) ∧
      ∀ b, b ≠ a → (b ∈ e.usedIn ↔ ∃ y, Earlier ds d y ∧ registered y = true ∧ y.name = b ∧
        a ∈ recorded y) := by
  rw [build_data all ds hn, List.mem_append] at hm
  rcases hm with hm | hm
  · obtain ⟨d, hd, hr, hdn, hdg, hs, hu⟩ := (inv_added all ds hn).entry a e hm
    exact ⟨d, hd, hr, hdn, Option.some.inj (hdg.symm.trans hg), hs, hu⟩
  · obtain ⟨n, -, h⟩ := List.mem_map.1 hm
    rw [← (Prod.mk.inj h).2] at hg
    exact absurd hg (by simp)

theorem build_has (all : Bool) (ds : List Decl) (hn : (ds.map Decl.name).Nodup) (d : Decl)
    (hd : d ∈ ds) (hr : registered d = true) :
    ∃ e, (d.name, e) ∈ (build all ds).data ∧ e.group = some d.group := by
  have I := inv_added all ds hn
  have h : d.name ∈ (added all ds).data.map Prod.fst := by
    rw [I.names]
    exact List.mem_map.2 ⟨d, List.mem_filter.2 ⟨hd, hr⟩, rfl⟩
  obtain ⟨⟨a, e⟩, hm, ha⟩ := List.mem_map.1 h
  simp only at ha
  subst ha
  obtain ⟨x, hx, -, hxn, hxg, -⟩ := I.entry _ e hm
  have : x = d := List.inj_on_of_nodup_map hn hx hd hxn
  subst this
  refine ⟨e, ?_, hxg⟩
  rw [build_data all ds hn]
  exact List.mem_append_left _ hm

/-! ## Sorting -/

theorem mem_insertName (n m : String) (l : List String) :
    m ∈ insertName n l ↔ m = n ∨ m ∈ l := by
  induction l with
  | nil => simp [insertName]
  | cons x r ih =>
    simp only [insertName]
    split
    · simp
    · simp only [List.mem_cons, ih]
      tauto

theorem mem_sortNames (m : String) (l : List String) : m ∈ sortNames l ↔ m ∈ l := by
  induction l with
  | nil => simp [sortNames]
  | cons x r ih =>
    simp only [sortNames, List.foldr_cons] at *
    rw [mem_insertName, ih]
    simp

theorem insertName_sorted (n : String) (l : List String) (h : l.Pairwise (· < ·)) (hn : n ∉ l) :
    (insertName n l).Pairwise (· < ·) := by
  induction l with
  | nil => simp [insertName]
  | cons x r ih =>
    rw [List.pairwise_cons] at h
    rw [List.mem_cons, not_or] at hn
    simp only [insertName]
    split
    · rename_i hlt
      rw [List.pairwise_cons]
      refine ⟨?_, List.pairwise_cons.2 h⟩
      intro y hy
      rw [List.mem_cons] at hy
      rcases hy with rfl | hy
      · exact hlt
      · exact String.lt_trans hlt (h.1 y hy)
    · rename_i hlt
      rw [List.pairwise_cons]
      refine ⟨?_, ih h.2 hn.2⟩
      intro y hy
      rw [mem_insertName] at hy
      rcases hy with rfl | hy
      · rcases Std.le_iff_lt_or_eq.1 (String.not_lt.1 hlt) with h' | h'
        · exact h'
        · exact absurd h'.symm hn.1
      · exact h.1 y hy

theorem sortNames_sorted (l : List String) (h : l.Nodup) : (sortNames l).Pairwise (· < ·) := by
  induction l with
  | nil => simp [sortNames]
  | cons x r ih =>
    rw [List.nodup_cons] at h
    simp only [sortNames, List.foldr_cons]
    exact insertName_sorted x _ (ih h.2) (fun hm => h.1 ((mem_sortNames x r).1 hm))

/-! ## Histories -/

theorem note_nodup (data : List (String × Entry)) (n : String) (refs : List String)
    (h : (data.map Prod.fst).Nodup) : ((note data n refs).map Prod.fst).Nodup := by
  rw [note_names]; exact h

theorem addToDataset_nodup (data : List (String × Entry)) (g : Grp) (n : String)
    (refs : List String) (h : (data.map Prod.fst).Nodup) :
    ((addToDataset data g n refs).map Prod.fst).Nodup :=
  note_nodup _ _ _ (put_nodup _ _ _ h)

theorem add_nodup (all : Bool) (s : State) (d : Decl) (h : (s.data.map Prod.fst).Nodup) :
    ((add all s d).data.map Prod.fst).Nodup := by
  have hin : ((addInput s d).data.map Prod.fst).Nodup := by
    unfold addInput
    split
    · exact put_nodup _ _ _ h
    · exact h
  have heq : ((addEquations all s d).data.map Prod.fst).Nodup := by
    unfold addEquations
    split
    · exact addToDataset_nodup _ _ _ _ h
    · exact h
  have hbase : ((baseVariable s d).data.map Prod.fst).Nodup := by
    unfold baseVariable
    split
    · exact addToDataset_nodup _ _ _ _ h
    · split
      · exact addToDataset_nodup _ _ _ _ h
      · exact h
  unfold add
  split
  · exact hin
  · exact hin
  · unfold addVariable
    split
    · exact note_nodup _ _ _ hbase
    · exact hbase
  · exact addToDataset_nodup _ _ _ _ h
  · split
    · exact heq
    · exact h
  · exact heq
  · exact heq
  · exact heq

theorem run_nodup (all : Bool) (ops : List Op) : ((run all ops).data.map Prod.fst).Nodup := by
  induction ops using List.reverseRecOn with
  | nil => exact List.nodup_nil
  | append_singleton ops o ih =>
    unfold run at *
    rw [List.foldl_append]
    show ((step all _ o).data.map Prod.fst).Nodup
    cases o with
    | add d => exact add_nodup all _ d ih
    | delete g n => exact ih.sublist (List.Sublist.map _ List.filter_sublist)

theorem finish_nodup (s : State) (h : (s.data.map Prod.fst).Nodup) :
    ((finish s).data.map Prod.fst).Nodup := by
  unfold finish
  simp only
  generalize s.dead = l
  generalize s.data = data at h
  induction l generalizing data with
  | nil => exact h
  | cons n r ih => exact ih _ (put_nodup _ _ _ h)

/-! ## The document -/

theorem shown_iff (s : State) (o : String) (g : Grp) (i : Item) :
    Shown (document s o) g i ↔ ∃ n e, (n, e) ∈ s.data ∧ e.group = some g ∧
      listed s g n e = true ∧ i = itemOf s o g n := by
  unfold Shown document
  constructor
  · rintro ⟨l, hl, hi⟩
    obtain ⟨g', hg', h⟩ := List.mem_map.1 hl
    obtain ⟨rfl, rfl⟩ := Prod.mk.inj h
    unfold itemsOf at hi
    obtain ⟨n, hm, hin⟩ := List.mem_map.1 hi
    rw [mem_sortNames] at hm
    obtain ⟨⟨n', e⟩, hme, hn'⟩ := List.mem_map.1 hm
    simp only at hn'
    subst hn'
    rw [List.mem_filter, Bool.and_eq_true, beq_iff_eq] at hme
    exact ⟨n', e, hme.1, hme.2.1, hme.2.2, hin.symm⟩
  · rintro ⟨n, e, hm, hg, hl, rfl⟩
    refine ⟨itemsOf s o g, ?_, ?_⟩
    · refine List.mem_map.2 ⟨g, List.mem_filter.2 ⟨by cases g <;> decide, ?_⟩, rfl⟩
      unfold headed
      rw [Bool.and_eq_true]
      refine ⟨List.any_eq_true.2 ⟨(n, e), hm, by simp [hg]⟩, ?_⟩
      rw [Bool.or_eq_true]
      right
      exact List.any_eq_true.2 ⟨(n, e), hm, by simp [hg, hl]⟩
    · unfold itemsOf
      refine List.mem_map.2 ⟨n, ?_, rfl⟩
      rw [mem_sortNames]
      exact List.mem_map.2 ⟨(n, e), List.mem_filter.2 ⟨hm, by simp [hg, hl]⟩, rfl⟩

theorem filter_eq_singleton {α : Type} [DecidableEq α] (l : List α) (x : α) (hn : l.Nodup) :
    l.filter (fun y => y == x) = if x ∈ l then [x] else [] := by
  induction l with
  | nil => rfl
  | cons y r ih =>
    rw [List.nodup_cons] at hn
    rw [List.filter_cons, ih hn.2]
    by_cases e : y = x
    · subst e
      simp [hn.1]
    · have e' : ¬ x = y := fun h => e h.symm
      simp [e, e']

theorem namesIn_eq (s : State) (o : String) (g : Grp) :
    namesIn (document s o) g = if headed s g then (itemsOf s o g).map Item.name else [] := by
  unfold namesIn document
  rw [List.filter_map, List.flatMap_map]
  have h1 : ((fun x : Grp × List Item => x.1 == g) ∘ fun g => (g, itemsOf s o g)) =
      fun y => y == g := rfl
  rw [h1, filter_eq_singleton _ g (List.Nodup.filter _ (by decide))]
  have hg : g ∈ groups := by cases g <;> decide
  by_cases hh : headed s g = true
  · rw [if_pos (List.mem_filter.2 ⟨hg, hh⟩), if_pos hh]
    simp
  · rw [if_neg (fun hm => hh (List.mem_filter.1 hm).2), if_neg hh]
    simp

theorem itemsOf_names (s : State) (o : String) (g : Grp) :
    (itemsOf s o g).map Item.name =
      sortNames ((s.data.filter (fun e => e.2.group == some g && listed s g e.1 e.2)).map
        Prod.fst) := by
  unfold itemsOf
  rw [List.map_map]
  exact List.map_id'' (fun _ => rfl) _

theorem mem_namesIn (s : State) (o : String) (g : Grp) (n : String) :
    n ∈ namesIn (document s o) g ↔ ∃ i, Shown (document s o) g i ∧ i.name = n := by
  unfold namesIn Shown
  rw [List.mem_flatMap]
  constructor
  · rintro ⟨⟨g', l⟩, hm, hn⟩
    rw [List.mem_filter, beq_iff_eq] at hm
    obtain ⟨hm, rfl⟩ := hm
    obtain ⟨i, hi, rfl⟩ := List.mem_map.1 hn
    exact ⟨i, ⟨l, hm, hi⟩, rfl⟩
  · rintro ⟨i, ⟨l, hm, hi⟩, rfl⟩
    exact ⟨(g, l), List.mem_filter.2 ⟨hm, by simp⟩, List.mem_map.2 ⟨i, hi, rfl⟩⟩

/-- The lists of a shown item, in terms of the dataset. -/
theorem item_usedIn (s : State) (hn : (s.data.map Prod.fst).Nodup) (o : String) (g : Grp)
    (n : String) (e : Entry) (hm : (n, e) ∈ s.data) (b : String) :
    b ∈ (itemOf s o g n).usedIn ↔ b ∈ e.usedIn ∧ b ≠ n := by
  unfold itemOf
  simp only
  rw [mem_sortNames, (lookup_of_mem s.data hn n e).2 hm, List.mem_filter]
  simp

theorem item_uses (s : State) (o : String) (g : Grp) (n : String) (b : String) :
    b ∈ (itemOf s o g n).uses ↔ (∃ e, (b, e) ∈ s.data ∧ n ∈ e.usedIn) ∧ b ≠ n := by
  unfold itemOf usesOf
  simp only
  rw [mem_sortNames, List.mem_filter, List.mem_map]
  simp only [List.mem_filter, List.contains_iff_mem, decide_eq_true_eq]
  constructor
  · rintro ⟨⟨⟨b', e⟩, ⟨h1, h2⟩, rfl⟩, h3⟩
    exact ⟨⟨e, h1, h2⟩, h3⟩
  · rintro ⟨⟨e, h1, h2⟩, h3⟩
    exact ⟨⟨(b, e), ⟨h1, h2⟩, rfl⟩, h3⟩

end MathDoc
end Calliope
