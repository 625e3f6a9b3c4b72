import Mathlib.Data.List.Nodup
import Verif.Spec.Expand

namespace Calliope
namespace Expand

open Expr

variable {V C : Type}

theorem mem_product {α : Type} : ∀ {ls : List (List α)} {c : List α},
    c ∈ product ls ↔ List.Forall₂ (fun a l => a ∈ l) c ls
  | [], c => by
      simp only [product, List.mem_singleton]
      constructor
      · rintro rfl; exact .nil
      · intro h; cases h; rfl
  | l :: ls, c => by
      simp only [product, List.mem_flatMap, List.mem_map]
      constructor
      · rintro ⟨a, ha, c, hc, rfl⟩
        exact .cons ha (mem_product.1 hc)
      · intro h
        cases h with
        | cons ha hc => exact ⟨_, ha, _, mem_product.2 hc, rfl⟩

theorem cases_eq {α : Type} (name : String) (l : List (C × α)) (c : Case C α) :
    c ∈ cases name l ↔ c.name = name ∧ ∃ w, l[c.idx]? = some (w, c.expr) ∧ c.wheres = [w] := by
  unfold cases
  simp only [List.mem_map, List.mem_zipIdx_iff_getElem?]
  constructor
  · rintro ⟨⟨⟨w, t⟩, i⟩, hp, rfl⟩
    exact ⟨rfl, w, hp, rfl⟩
  · rintro ⟨hn, w, hl, hw⟩
    refine ⟨((w, c.expr), c.idx), hl, ?_⟩
    cases c
    simp_all

theorem lookup_cases {α : Type} (defs : List (String × List (C × α))) (n : String) :
    (defs.map (fun p => (p.1, cases p.1 p.2))).lookup n = (defs.lookup n).map (cases n) := by
  induction defs with
  | nil => rfl
  | cons p ds ih =>
    obtain ⟨a, b⟩ := p
    simp only [List.map_cons, List.lookup_cons]
    by_cases h : n = a
    · subst h; simp
    · simp only [beq_false_of_ne h]
      exact ih

theorem gather_choice {α : Type} (defs : List (String × List (C × α))) : ∀ (ns : List String)
    {ls : List (List (Case C α))},
    gather (defs.map (fun p => (p.1, cases p.1 p.2))) ns = some ls →
    ∀ cs, cs ∈ product ls ↔ Choice defs ns cs
  | [], ls, h, cs => by
      simp only [gather, Option.some.injEq] at h
      subst h
      simp only [product, List.mem_singleton, Choice, List.map_eq_nil_iff]
      constructor
      · rintro rfl
        simp
      · intro h; exact h.1
  | n :: ns, ls, h, cs => by
      simp only [gather, lookup_cases] at h
      cases hl : defs.lookup n with
      | none => rw [hl] at h; simp at h
      | some l =>
        rw [hl] at h
        cases hg : gather (defs.map (fun p => (p.1, cases p.1 p.2))) ns with
        | none => rw [hg] at h; simp at h
        | some ms =>
          rw [hg] at h
          simp only [Option.map_some, Option.some.injEq] at h
          subst h
          have ih := gather_choice defs ns hg
          simp only [product, List.mem_flatMap, List.mem_map]
          constructor
          · rintro ⟨c, hc, ds, hds, rfl⟩
            rw [cases_eq] at hc
            obtain ⟨h1, h2⟩ := (ih ds).1 hds
            refine ⟨by simp [h1, hc.1], ?_⟩
            intro c' hc'
            rcases List.mem_cons.1 hc' with rfl | hc'
            · obtain ⟨hn, w, hw⟩ := hc
              exact ⟨l, w, hn ▸ hl, hw⟩
            · exact h2 c' hc'
          · rintro ⟨h1, h2⟩
            cases cs with
            | nil => simp at h1
            | cons c ds =>
              simp only [List.map_cons, List.cons.injEq] at h1
              refine ⟨c, ?_, ds, (ih ds).2 ⟨h1.2, fun c' hc' => h2 c' (List.mem_cons_of_mem _ hc')⟩, rfl⟩
              rw [cases_eq]
              obtain ⟨l', w, hl', hw⟩ := h2 c (List.mem_cons_self ..)
              rw [h1.1, hl] at hl'
              cases hl'
              exact ⟨h1.1, w, hw⟩

/-- `extend` when it succeeds. -/
theorem extend_mem {α : Type} {enum : List String → List String} {refs : List String}
    {defs : List (String × List (C × α))} {add : Equation V C → List (Case C α) → Equation V C}
    {e : Equation V C} {es : List (Equation V C)} (h0 : add e [] = e)
    (h : extend enum refs (defs.map (fun p => (p.1, cases p.1 p.2))) add e = .ok es) (e' : Equation V C) :
    e' ∈ es ↔ ∃ cs, Choice defs (enum refs) cs ∧ e' = add e cs := by
  unfold extend at h
  split at h
  · rename_i hn
    cases h
    rw [hn, List.mem_singleton]
    constructor
    · rintro rfl
      exact ⟨[], ⟨rfl, by simp⟩, h0.symm⟩
    · rintro ⟨cs, ⟨hc, _⟩, rfl⟩
      simp only [List.map_eq_nil_iff] at hc
      subst hc
      exact h0
  · rename_i n ns hn
    split at h
    · cases h
    · rename_i ls hg
      cases h
      rw [hn, List.mem_map]
      constructor
      · rintro ⟨cs, hcs, rfl⟩
        exact ⟨cs, (gather_choice defs _ hg cs).1 hcs, rfl⟩
      · rintro ⟨cs, hcs, rfl⟩
        exact ⟨cs, (gather_choice defs _ hg cs).2 hcs, rfl⟩

theorem extendAll_mem {f : Equation V C → Except Err (List (Equation V C))} :
    ∀ {l es : List (Equation V C)}, extendAll f l = .ok es →
      (∀ e ∈ l, ∃ m, f e = .ok m) ∧ ∀ e', e' ∈ es ↔ ∃ e ∈ l, ∃ m, f e = .ok m ∧ e' ∈ m
  | [], es, h => by
      simp only [extendAll, Except.ok.injEq] at h
      subst h
      simp
  | e :: l, es, h => by
      simp only [extendAll] at h
      split at h
      · cases h
      · rename_i m hm
        split at h
        · cases h
        · rename_i ms hms
          cases h
          have ih := extendAll_mem hms
          refine ⟨?_, ?_⟩
          · intro e' he'
            rcases List.mem_cons.1 he' with rfl | he'
            · exact ⟨m, hm⟩
            · exact ih.1 e' he'
          · intro e'
            rw [List.mem_append, ih.2]
            constructor
            · rintro (h | ⟨e2, h2, h3⟩)
              · exact ⟨e, List.mem_cons_self .., m, hm, h⟩
              · exact ⟨e2, List.mem_cons_of_mem _ h2, h3⟩
            · rintro ⟨e2, h2, m', h3, h4⟩
              rcases List.mem_cons.1 h2 with rfl | h2
              · rw [hm] at h3; cases h3; exact .inl h4
              · exact .inr ⟨e2, h2, m', h3, h4⟩

theorem lookup_mem {α : Type} {defs : List (String × α)} {n : String} {l : α}
    (h : defs.lookup n = some l) : (n, l) ∈ defs := by
  induction defs with
  | nil => cases h
  | cons p ds ih =>
    obtain ⟨a, b⟩ := p
    rw [List.lookup_cons] at h
    by_cases he : n = a
    · subst he
      simp only [BEq.rfl, Option.some.injEq] at h
      subst h
      exact List.mem_cons_self ..
    · rw [beq_false_of_ne he] at h
      exact List.mem_cons_of_mem _ (ih h)

/-! ### Every combination once -/

theorem product_map {α β : Type} (f : α → β) : ∀ (ls : List (List α)),
    (product ls).map (List.map f) = product (ls.map (List.map f))
  | [] => rfl
  | l :: ls => by
      simp only [product, List.map_cons, List.map_flatMap, List.flatMap_map, List.map_map,
        ← product_map f ls]
      rfl

theorem product_nodup {α : Type} : ∀ (ls : List (List α)), (∀ l ∈ ls, l.Nodup) → (product ls).Nodup
  | [], _ => by simp [product]
  | l :: ls, h => by
      simp only [product]
      rw [List.nodup_flatMap]
      refine ⟨fun a _ => (product_nodup ls (fun m hm => h m (List.mem_cons_of_mem _ hm))).map
        (fun x y hxy => by simpa using hxy), ?_⟩
      refine List.Pairwise.imp ?_ (h l (List.mem_cons_self ..))
      intro a b hab c h1 h2
      simp only [List.mem_map] at h1 h2
      obtain ⟨x, _, rfl⟩ := h1
      obtain ⟨y, _, hy⟩ := h2
      simp only [List.cons.injEq] at hy
      exact hab hy.1.symm

/-- Which entry of which name. -/
def key {α : Type} (c : Case C α) : String × Nat := (c.name, c.idx)

theorem cases_key_nodup {α : Type} (name : String) (l : List (C × α)) :
    ((cases name l).map key).Nodup := by
  have : (cases name l).map key = (l.zipIdx.map Prod.snd).map (fun i => (name, i)) := by
    unfold cases
    rw [List.map_map, List.map_map]
    rfl
  rw [this, List.zipIdx_map_snd]
  exact (List.nodup_range').map (fun i j h => by simpa using h)

theorem gather_key_nodup {α : Type} (defs : List (String × List (C × α))) : ∀ (ns : List String)
    {ls : List (List (Case C α))},
    gather (defs.map (fun p => (p.1, cases p.1 p.2))) ns = some ls →
    ls.length = ns.length ∧ ∀ l ∈ ls, (l.map key).Nodup
  | [], ls, h => by
      simp only [gather, Option.some.injEq] at h
      subst h
      simp
  | n :: ns, ls, h => by
      simp only [gather, lookup_cases] at h
      cases hl : defs.lookup n with
      | none => rw [hl] at h; simp at h
      | some l =>
        rw [hl] at h
        cases hg : gather (defs.map (fun p => (p.1, cases p.1 p.2))) ns with
        | none => rw [hg] at h; simp at h
        | some ms =>
          rw [hg] at h
          simp only [Option.map_some, Option.some.injEq] at h
          subst h
          have ih := gather_key_nodup defs ns hg
          refine ⟨by simp [ih.1], ?_⟩
          intro k hk
          rcases List.mem_cons.1 hk with rfl | hk
          · exact cases_key_nodup n l
          · exact ih.2 k hk

theorem extend_parts {α : Type} {enum : List String → List String} {refs : List String}
    {defs : List (String × List (C × α))} {add : Equation V C → List (Case C α) → Equation V C}
    (hadd : ∀ e cs, (add e cs).parts = e.parts ++ cs.map key)
    {e : Equation V C} {es : List (Equation V C)}
    (hx : extend enum refs (defs.map (fun p => (p.1, cases p.1 p.2))) add e = .ok es) :
    (es.map Equation.parts).Nodup ∧
      ∀ e' ∈ es, ∃ s, e'.parts = e.parts ++ s ∧ s.length = (enum refs).length := by
  unfold extend at hx
  split at hx
  · rename_i hn
    cases hx
    rw [hn]
    refine ⟨by simp, ?_⟩
    intro e' he'
    rw [List.mem_singleton] at he'
    subst he'
    exact ⟨[], by simp⟩
  · rename_i n ns hn
    split at hx
    · cases hx
    · rename_i ls hg
      cases hx
      have hk := gather_key_nodup defs _ hg
      refine ⟨?_, ?_⟩
      · have : ((product ls).map (add e)).map Equation.parts =
            ((product ls).map (List.map key)).map (fun s => e.parts ++ s) := by
          rw [List.map_map, List.map_map]
          apply List.map_congr_left
          intro cs _
          exact hadd e cs
        rw [this, product_map]
        refine (product_nodup _ ?_).map (fun x y hxy => List.append_cancel_left hxy)
        intro l hl
        obtain ⟨m, hm, rfl⟩ := List.mem_map.1 hl
        exact hk.2 m hm
      · intro e' he'
        obtain ⟨cs, hcs, rfl⟩ := List.mem_map.1 he'
        refine ⟨cs.map key, hadd e cs, ?_⟩
        rw [hn, List.length_map, (mem_product.1 hcs).length_eq, hk.1]

theorem extendAll_nodup {f : Equation V C → Except Err (List (Equation V C))} :
    ∀ {l es : List (Equation V C)},
      (∀ e ∈ l, ∀ m, f e = .ok m → (m.map Equation.parts).Nodup) →
      l.Pairwise (fun e e' => ∀ m m', f e = .ok m → f e' = .ok m' →
        ∀ x ∈ m, ∀ y ∈ m', x.parts ≠ y.parts) →
      extendAll f l = .ok es → (es.map Equation.parts).Nodup
  | [], es, _, _, h => by
      simp only [extendAll, Except.ok.injEq] at h
      subst h
      simp
  | e :: l, es, h1, h2, h => by
      simp only [extendAll] at h
      split at h
      · cases h
      · rename_i m hm
        split at h
        · cases h
        · rename_i ms hms
          cases h
          rw [List.pairwise_cons] at h2
          rw [List.map_append, List.nodup_append]
          refine ⟨h1 e (List.mem_cons_self ..) m hm,
            extendAll_nodup (fun e' he' => h1 e' (List.mem_cons_of_mem _ he')) h2.2 hms, ?_⟩
          intro x hx y hy hxy
          obtain ⟨a, ha, rfl⟩ := List.mem_map.1 hx
          obtain ⟨b, hb, rfl⟩ := List.mem_map.1 hy
          obtain ⟨e2, he2, m2, hm2, hb2⟩ := ((extendAll_mem hms).2 b).1 hb
          exact h2.1 e2 he2 m m2 hm hm2 a ha b hb2 hxy

/-! ### Counting -/

theorem filter_flatMap_length {α β : Type} (p : β → Bool) (f : α → List β) (l : List α) :
    ((l.flatMap f).filter p).length = (l.map (fun a => ((f a).filter p).length)).sum := by
  induction l with
  | nil => rfl
  | cons a l ih => simp [List.flatMap_cons, List.filter_append, ih]

theorem product_count {α : Type} (p : α → Bool) : ∀ (ls : List (List α)),
    ((product ls).filter (fun c => c.all p)).length = (ls.map (fun l => (l.filter p).length)).prod
  | [] => rfl
  | l :: ls => by
      simp only [product, List.map_cons, List.prod_cons]
      rw [← product_count p ls, filter_flatMap_length]
      induction l with
      | nil => simp
      | cons a l ih =>
        simp only [List.map_cons, List.sum_cons, ih]
        cases hp : p a with
        | false =>
          rw [List.filter_cons_of_neg (by simp [hp]), List.filter_map]
          simp [Function.comp_def, hp]
        | true =>
          rw [List.filter_cons_of_pos hp, List.filter_map, List.length_map]
          simp only [Function.comp_def, List.all_cons, hp, Bool.true_and, List.length_cons]
          rw [Nat.add_mul, Nat.one_mul, Nat.add_comm]

theorem cases_count {α : Type} (h : C → Bool) (name : String) (l : List (C × α)) :
    ((cases name l).filter (fun c => c.wheres.all h)).length = count h l := by
  unfold cases count
  rw [List.filter_map, List.length_map]
  simp only [Function.comp_def, List.all_cons, List.all_nil, Bool.and_true]
  have : ∀ (k : Nat), ((l.zipIdx k).filter (fun p => h p.1.1)).length =
      (l.filter (fun p => h p.1)).length := by
    induction l with
    | nil => intro k; rfl
    | cons a l ih =>
      intro k
      simp only [List.zipIdx_cons]
      cases ha : h a.1 with
      | false => rw [List.filter_cons_of_neg (by simp [ha]), List.filter_cons_of_neg (by simp [ha]), ih]
      | true =>
        rw [List.filter_cons_of_pos (by exact ha), List.filter_cons_of_pos (by exact ha),
          List.length_cons, List.length_cons, ih]
  exact this 0

/-- The number of entries of a name that hold. -/
def countName {α : Type} (h : C → Bool) (defs : List (String × List (C × α))) (n : String) : Nat :=
  match defs.lookup n with
  | some l => count h l
  | none => 0

theorem gather_count {α : Type} (h : C → Bool) (defs : List (String × List (C × α))) :
    ∀ (ns : List String) {ls : List (List (Case C α))},
    gather (defs.map (fun p => (p.1, cases p.1 p.2))) ns = some ls →
    ls.map (fun l => (l.filter (fun c => c.wheres.all h)).length) = ns.map (countName h defs)
  | [], ls, hg => by
      simp only [gather, Option.some.injEq] at hg
      subst hg; rfl
  | n :: ns, ls, hg => by
      simp only [gather, lookup_cases] at hg
      cases hl : defs.lookup n with
      | none => rw [hl] at hg; simp at hg
      | some l =>
        rw [hl] at hg
        cases hg' : gather (defs.map (fun p => (p.1, cases p.1 p.2))) ns with
        | none => rw [hg'] at hg; simp at hg
        | some ms =>
          rw [hg'] at hg
          simp only [Option.map_some, Option.some.injEq] at hg
          subst hg
          simp only [List.map_cons, gather_count h defs ns hg', cases_count, countName, hl]

theorem extend_count {α : Type} (h : C → Bool) {enum : List String → List String} {refs : List String}
    {defs : List (String × List (C × α))} {add : Equation V C → List (Case C α) → Equation V C}
    (hadd : ∀ e cs, (add e cs).wheres = e.wheres ++ cs.flatMap (fun c => c.wheres))
    {e : Equation V C} {es : List (Equation V C)}
    (hx : extend enum refs (defs.map (fun p => (p.1, cases p.1 p.2))) add e = .ok es) :
    countEq h es = (if e.wheres.all h then 1 else 0) * ((enum refs).map (countName h defs)).prod := by
  unfold extend at hx
  split at hx
  · rename_i hn
    cases hx
    rw [hn]
    simp only [countEq, List.map_nil, List.prod_nil, Nat.mul_one]
    cases he : e.wheres.all h <;> simp [he]
  · rename_i n ns hn
    split at hx
    · cases hx
    · rename_i ls hg
      cases hx
      rw [hn, ← gather_count h defs _ hg, ← product_count]
      unfold countEq
      rw [List.filter_map, List.length_map]
      simp only [Function.comp_def, hadd, List.all_append, List.all_flatMap]
      cases he : e.wheres.all h with
      | false => simp
      | true => simp

theorem extendAll_count (h : C → Bool) {f : Equation V C → Except Err (List (Equation V C))}
    (g : Equation V C → Nat) : ∀ {l es : List (Equation V C)},
    (∀ e ∈ l, ∀ m, f e = .ok m → countEq h m = (if e.wheres.all h then 1 else 0) * g e) →
    extendAll f l = .ok es →
    countEq h es = ((l.filter (fun e => e.wheres.all h)).map g).sum
  | [], es, _, hx => by
      simp only [extendAll, Except.ok.injEq] at hx
      subst hx
      rfl
  | e :: l, es, hf, hx => by
      simp only [extendAll] at hx
      split at hx
      · cases hx
      · rename_i m hm
        split at hx
        · cases hx
        · rename_i ms hms
          cases hx
          have ih := extendAll_count h g (fun e' he' => hf e' (List.mem_cons_of_mem _ he')) hms
          have h1 := hf e (List.mem_cons_self ..) m hm
          unfold countEq at ih h1 ⊢
          rw [List.filter_append, List.length_append, ih, h1]
          cases he : e.wheres.all h with
          | false => rw [List.filter_cons_of_neg (by simp [he])]; simp
          | true => rw [List.filter_cons_of_pos (by exact he)]; simp

theorem initial_count (h : C → Bool) (name : String) (eqs : List (C × Body V)) :
    ((initial name eqs).filter (fun e => e.wheres.all h)).length = count h eqs := by
  unfold initial count
  rw [List.filter_map, List.length_map]
  simp only [Function.comp_def, List.all_cons, List.all_nil, Bool.and_true]
  have : ∀ (k : Nat), ((eqs.zipIdx k).filter (fun p => h p.1.1)).length =
      (eqs.filter (fun p => h p.1)).length := by
    induction eqs with
    | nil => intro k; rfl
    | cons a l ih =>
      intro k
      simp only [List.zipIdx_cons]
      cases ha : h a.1 with
      | false => rw [List.filter_cons_of_neg (by simp [ha]), List.filter_cons_of_neg (by simp [ha]), ih]
      | true =>
        rw [List.filter_cons_of_pos (by exact ha), List.filter_cons_of_pos (by exact ha),
          List.length_cons, List.length_cons, ih]
  exact this 0

theorem prod_le_one {l : List Nat} (h : ∀ n ∈ l, n ≤ 1) : l.prod ≤ 1 := by
  induction l with
  | nil => simp
  | cons a l ih =>
    rw [List.prod_cons]
    exact Nat.mul_le_mul (h a (List.mem_cons_self ..)) (ih (fun n hn => h n (List.mem_cons_of_mem _ hn)))

theorem one_le_prod {l : List Nat} (h : ∀ n ∈ l, 1 ≤ n) : 1 ≤ l.prod := by
  induction l with
  | nil => simp
  | cons a l ih =>
    rw [List.prod_cons]
    exact Nat.mul_le_mul (h a (List.mem_cons_self ..)) (ih (fun n hn => h n (List.mem_cons_of_mem _ hn)))

theorem sum_le_length {l : List Nat} (h : ∀ n ∈ l, n ≤ 1) : l.sum ≤ l.length := by
  induction l with
  | nil => simp
  | cons a l ih =>
    have := h a (List.mem_cons_self ..)
    have := ih (fun n hn => h n (List.mem_cons_of_mem _ hn))
    simp only [List.sum_cons, List.length_cons]
    omega

theorem length_le_sum {l : List Nat} (h : ∀ n ∈ l, 1 ≤ n) : l.length ≤ l.sum := by
  induction l with
  | nil => simp
  | cons a l ih =>
    have := h a (List.mem_cons_self ..)
    have := ih (fun n hn => h n (List.mem_cons_of_mem _ hn))
    simp only [List.sum_cons, List.length_cons]
    omega

/-! ### References -/

mutual
theorem subRefs_all : ∀ (t : Ex V), NoSignedRef t → subRefs t = AllSubs t
  | .sub n, _ => by simp only [subRefs, AllSubs]
  | .num _, _ => by simp only [subRefs, AllSubs]
  | .comp _, _ => by simp only [subRefs, AllSubs]
  | .sliced _ _, _ => by simp only [subRefs, AllSubs]
  | .sign _ t, h => by simp only [NoSignedRef] at h; simp only [subRefs, AllSubs, h.1]
  | .chain t r, h => by
      simp only [NoSignedRef] at h
      simp only [subRefs, AllSubs, subRefs_all t h.1, subRefsRest_all r h.2]
  | .sum t _, h => by simp only [NoSignedRef] at h; simp only [subRefs, AllSubs, subRefs_all t h]
  | .reduceCarrier t _, h => by simp only [NoSignedRef] at h; simp only [subRefs, AllSubs, subRefs_all t h]
  | .roll t _, h => by simp only [NoSignedRef] at h; simp only [subRefs, AllSubs, subRefs_all t h]
  | .groupSum t _ _, h => by simp only [NoSignedRef] at h; simp only [subRefs, AllSubs, subRefs_all t h]
  | .groupDatetime t _ _, h => by
      simp only [NoSignedRef] at h; simp only [subRefs, AllSubs, subRefs_all t h]
  | .sumNextN t _ _, h => by simp only [NoSignedRef] at h; simp only [subRefs, AllSubs, subRefs_all t h]
  | .select t _, h => by simp only [NoSignedRef] at h; simp only [subRefs, AllSubs, subRefs_all t h]
  | .cond t c, h => by
      simp only [NoSignedRef] at h
      simp only [subRefs, AllSubs, subRefs_all t h.1, subRefs_all c h.2]
theorem subRefsRest_all : ∀ (r : ExRest V), NoSignedRefRest r → subRefsRest r = AllSubsRest r
  | .one _ t, h => by
      simp only [NoSignedRefRest] at h
      simp only [subRefsRest, AllSubsRest, subRefs_all t h]
  | .more _ t r, h => by
      simp only [NoSignedRefRest] at h
      simp only [subRefsRest, AllSubsRest, subRefs_all t h.1, subRefsRest_all r h.2]
end

mutual
theorem sliceRefs_all : ∀ (t : Ex V), NoSignedRef t → sliceRefs t = AllSlices t
  | .sub n, _ => by simp only [sliceRefs, AllSlices]
  | .num _, _ => by simp only [sliceRefs, AllSlices]
  | .comp _, _ => by simp only [sliceRefs, AllSlices]
  | .sliced _ _, _ => by simp only [sliceRefs, AllSlices]
  | .sign _ t, h => by simp only [NoSignedRef] at h; simp only [sliceRefs, AllSlices, h.2]
  | .chain t r, h => by
      simp only [NoSignedRef] at h
      simp only [sliceRefs, AllSlices, sliceRefs_all t h.1, sliceRefsRest_all r h.2]
  | .sum t _, h => by simp only [NoSignedRef] at h; simp only [sliceRefs, AllSlices, sliceRefs_all t h]
  | .reduceCarrier t _, h => by
      simp only [NoSignedRef] at h; simp only [sliceRefs, AllSlices, sliceRefs_all t h]
  | .roll t _, h => by simp only [NoSignedRef] at h; simp only [sliceRefs, AllSlices, sliceRefs_all t h]
  | .groupSum t _ _, h => by
      simp only [NoSignedRef] at h; simp only [sliceRefs, AllSlices, sliceRefs_all t h]
  | .groupDatetime t _ _, h => by
      simp only [NoSignedRef] at h; simp only [sliceRefs, AllSlices, sliceRefs_all t h]
  | .sumNextN t _ _, h => by
      simp only [NoSignedRef] at h; simp only [sliceRefs, AllSlices, sliceRefs_all t h]
  | .select t _, h => by simp only [NoSignedRef] at h; simp only [sliceRefs, AllSlices, sliceRefs_all t h]
  | .cond t c, h => by
      simp only [NoSignedRef] at h
      simp only [sliceRefs, AllSlices, sliceRefs_all t h.1, sliceRefs_all c h.2]
theorem sliceRefsRest_all : ∀ (r : ExRest V), NoSignedRefRest r → sliceRefsRest r = AllSlicesRest r
  | .one _ t, h => by
      simp only [NoSignedRefRest] at h
      simp only [sliceRefsRest, AllSlicesRest, sliceRefs_all t h]
  | .more _ t r, h => by
      simp only [NoSignedRefRest] at h
      simp only [sliceRefsRest, AllSlicesRest, sliceRefs_all t h.1, sliceRefsRest_all r h.2]
end

end Expand
end Calliope
