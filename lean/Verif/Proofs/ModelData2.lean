import Verif.Proofs.ModelData

namespace Calliope
namespace ModelData

open Grid Dict

variable {V : Type}

/-! ### Arrays of a dataset -/

/-- `valueOf` of a list of arrays. -/
def varAt (vars : List (String × Arr (Option (Scalar V)))) (p : String) (ρ : String → Label) : Option (Scalar V) :=
  match vars.lookup p with
  | none => none
  | some a => a.at ρ

theorem valueOf_eq (ds : DS V) (p : String) (ρ : String → Label) : valueOf ds p ρ = varAt ds.vars p ρ := rfl

theorem fill_at (a b : Arr (Option (Scalar V))) (ρ : String → Label) : (fill a b).at ρ = (a.at ρ).or (b.at ρ) :=
  at_zip _ _ _ _

theorem varAt_addVar (vars : List (String × Arr (Option (Scalar V)))) (n : String) (a : Arr (Option (Scalar V)))
    (p : String) (ρ : String → Label) :
    varAt (addVar vars n a) p ρ = if p = n then (varAt vars p ρ).or (a.at ρ) else varAt vars p ρ := by
  induction vars with
  | nil =>
    simp only [addVar, varAt, List.lookup_cons, List.lookup_nil]
    by_cases h : p = n
    · subst h; simp
    · simp [h, beq_false_of_ne h]
  | cons x xs ih =>
    obtain ⟨m, b⟩ := x
    simp only [addVar]
    by_cases hm : m = n
    · subst hm
      simp only [if_true, varAt, List.lookup_cons]
      by_cases h : p = m
      · subst h; simp [fill_at]
      · simp [beq_false_of_ne h, h]
    · rw [if_neg hm]
      simp only [varAt, List.lookup_cons] at ih ⊢
      by_cases h : p = m
      · subst h; simp [hm]
      · simp only [beq_false_of_ne h]; exact ih

theorem names_addVar (vars : List (String × Arr (Option (Scalar V)))) (n : String) (a : Arr (Option (Scalar V))) :
    ∀ p, p ∈ (addVar vars n a).map Prod.fst ↔ p ∈ vars.map Prod.fst ∨ p = n := by
  intro p
  induction vars with
  | nil => simp [addVar]
  | cons x xs ih =>
    obtain ⟨m, b⟩ := x
    simp only [addVar]
    by_cases hm : m = n
    · subst hm
      simp only [if_true, List.map_cons, List.mem_cons]
      tauto
    · rw [if_neg hm]
      simp only [List.map_cons, List.mem_cons, ih]
      tauto

theorem nodup_addVar (vars : List (String × Arr (Option (Scalar V)))) (n : String) (a : Arr (Option (Scalar V)))
    (h : (vars.map Prod.fst).Nodup) : ((addVar vars n a).map Prod.fst).Nodup := by
  induction vars with
  | nil => simp [addVar]
  | cons x xs ih =>
    obtain ⟨m, b⟩ := x
    simp only [List.map_cons, List.nodup_cons] at h
    simp only [addVar]
    by_cases hm : m = n
    · subst hm
      simpa using h
    · rw [if_neg hm]
      simp only [List.map_cons, List.nodup_cons]
      refine ⟨fun hc => ?_, ih h.2⟩
      rcases (names_addVar xs n a m).1 hc with hc | hc
      · exact h.1 hc
      · exact hm hc

theorem varAt_none {vars : List (String × Arr (Option (Scalar V)))} {p : String} {ρ : String → Label}
    (h : p ∉ vars.map Prod.fst) : varAt vars p ρ = none := by
  have : vars.lookup p = none := by
    rw [List.lookup_eq_none_iff]
    intro x hx
    simp only [bne_iff_ne, ne_eq]
    intro e
    exact h (List.mem_map.2 ⟨x, hx, e.symm⟩)
  simp [varAt, this]

/-- Adding the arrays of a dataset one by one. -/
theorem varAt_foldl (p : String) (ρ : String → Label) :
    ∀ (new vars : List (String × Arr (Option (Scalar V)))), (new.map Prod.fst).Nodup →
      varAt (new.foldl (fun vs y => addVar vs y.1 y.2) vars) p ρ = (varAt vars p ρ).or (varAt new p ρ)
  | [], vars, _ => by simp [varAt]
  | (n, a) :: new, vars, h => by
      simp only [List.map_cons, List.nodup_cons] at h
      rw [List.foldl_cons, varAt_foldl p ρ new _ h.2, varAt_addVar]
      by_cases hp : p = n
      · subst hp
        rw [if_pos rfl, varAt_none h.1, Option.or_none]
        congr 1
        simp [varAt]
      · rw [if_neg hp]
        congr 1
        simp [varAt, List.lookup_cons, beq_false_of_ne hp]

theorem nodup_foldl : ∀ (new vars : List (String × Arr (Option (Scalar V)))), (vars.map Prod.fst).Nodup →
    ((new.foldl (fun vs y => addVar vs y.1 y.2) vars).map Prod.fst).Nodup
  | [], _, h => h
  | (n, a) :: new, vars, h => by
      rw [List.foldl_cons]
      exact nodup_foldl new _ (nodup_addVar vars n a h)

/-! ### Settings as arrays -/

theorem lookup_join_eq_find (c : List Label) : ∀ (l : List (List Label × Option (Scalar V))),
    (l.lookup c).join = match l.find? (fun e => e.1 == c) with
      | none => none
      | some e => e.2
  | [] => rfl
  | (r, x) :: l => by
      simp only [List.lookup_cons, List.find?_cons]
      by_cases h : c = r
      · subst h; simp
      · rw [beq_false_of_ne h, beq_false_of_ne (fun e => h e.symm)]
        exact lookup_join_eq_find c l

theorem indexItems_eq (ctx : Ctx V) (v : Option (Datum V)) : indexItems ctx v = rows ctx v := by
  rcases v with _ | (x | xs | xs)
  · rfl
  · rfl
  · simp only [indexItems, rows]
    apply List.map_congr_left
    rintro (_ | x) _ <;> rfl
  · rfl

theorem dimNames_eq (ctx : Ctx V) (v : Option (Datum V)) : dimNames ctx v = named ctx v := by
  rcases v with _ | (x | xs | xs)
  · rfl
  · rfl
  · simp only [dimNames, named, listify]
    induction xs with
    | nil => rfl
    | cons x xs ih =>
      rcases x with _ | x <;> simp [ih]
  · rfl

theorem dataItems_entries {v : Option (Datum V)} {r : List (List Label)} {xs : List (Option (Scalar V))}
    (h : dataItems v r.length = some xs) : r.zip xs = entries r v := by
  rcases v with _ | (x | ys | ys)
  · simp only [dataItems, Option.some.injEq] at h
    subst h
    simp only [entries]
    induction r with
    | nil => rfl
    | cons a r ih => simp [List.replicate_succ, ih]
  · simp only [dataItems, Option.some.injEq] at h
    subst h
    simp only [entries]
    induction r with
    | nil => rfl
    | cons a r ih => simp [List.replicate_succ, ih]
  · simp only [dataItems] at h
    split at h
    · simp only [Option.some.injEq] at h
      subst h; rfl
    · cases h
  · cases h

theorem leafOf_ok {d : Def V} {k : Key} {a : Option (Datum V)} (h : leafOf d k = .ok a) :
    d.get1 k = some (.leaf a) := by
  unfold leafOf at h
  rcases hg : d.get1 k with _ | (b | e)
  · rw [hg] at h; cases h
  · rw [hg] at h; simp only [Except.ok.injEq] at h; subst h; rfl
  · rw [hg] at h; cases h

/-- The array of a setting has the values that the setting says. -/
theorem prepare_at {ctx : Ctx V} {p : Key} {v : Val (Datum V)} {q : Prepared V} (h : prepare ctx p v = .ok q)
    (ρ : String → Label) : (toArr q).at ρ = settingAt ctx p v ρ := by
  rcases v with a | d
  · rcases a with _ | a
    · simp only [prepare, Except.ok.injEq] at h
      subst h; rfl
    · simp only [prepare] at h
      simp only [settingAt]
      rcases hp : ctx.pivot p with _ | dim
      · rw [hp] at h
        rcases a with x | xs | xs
        · simp only [Except.ok.injEq] at h
          subst h; rfl
        · cases h
        · cases h
      · rw [hp] at h
        simp only [preparePivot] at h
        split at h
        · simp only [Except.ok.injEq] at h
          subst h
          have hi : (listify (some a)).filterMap (fun x => x.map (fun y => [ctx.label y])) =
              (named ctx (some a)).map (fun l => [l]) := by
            rw [← dimNames_eq]
            simp only [dimNames]
            generalize listify (some a) = l
            induction l with
            | nil => rfl
            | cons x xs ih => rcases x with _ | x <;> simp [ih]
          simp only [toArr, Arr.at, List.map_cons, List.map_nil, hi]
          generalize named ctx (some a) = l
          induction l with
          | nil => simp
          | cons x xs ih =>
            simp only [List.map_cons, List.lookup_cons, List.mem_cons]
            by_cases hx : ρ dim = x
            · subst hx; simp
            · have : ([ρ dim] == [x]) = false := by simpa using hx
              rw [this]
              simp only [hx, false_or]
              exact ih
        · cases h
  · simp only [prepare, prepareIndexed] at h
    simp only [settingAt]
    rcases h1 : leafOf d "data" with e | data
    · rw [h1] at h; cases h
    rcases h2 : leafOf d "index" with e | index
    · rw [h1, h2] at h; cases h
    rcases h3 : leafOf d "dims" with e | dims
    · rw [h1, h2, h3] at h; cases h
    rw [h1, h2, h3] at h
    simp only [] at h
    rw [leafOf_ok h1, leafOf_ok h2, leafOf_ok h3]
    simp only []
    split at h
    · cases h
    rcases hd : dataItems data (indexItems ctx index).length with _ | xs
    · rw [hd] at h; cases h
    rw [hd] at h
    simp only [] at h
    split at h
    · simp only [Except.ok.injEq] at h
      subst h
      simp only [toArr, Arr.at, indexedAt]
      rw [lookup_join_eq_find, dataItems_entries hd, indexItems_eq, dimNames_eq]
      cases (entries (rows ctx index) data).find? (fun e => e.1 == (named ctx dims).map ρ) <;> rfl
    · cases h

theorem lookup_map_cons (l : Label) (i : Key) (c : List Label) :
    ∀ (cells : List (List Label × Option (Scalar V))),
      (cells.map (fun x => (i :: x.1, x.2))).lookup (l :: c) = if l = i then cells.lookup c else none
  | [] => by simp
  | (r, x) :: cells => by
      simp only [List.map_cons, List.lookup_cons]
      rw [lookup_map_cons l i c cells]
      by_cases h : l = i
      · subst h
        by_cases hc : c = r
        · subst hc; simp
        · have : (l :: c == l :: r) = false := by simpa using hc
          rw [this, beq_false_of_ne hc]
      · have : (l :: c == i :: r) = false := by simp [h]
        rw [this]
        simp [h]

theorem atItem_at (dim : String) (i : Key) (q : Prepared V) (ρ : String → Label) :
    (toArr (atItem dim i q)).at ρ = if ρ dim = i then (toArr q).at ρ else none := by
  simp only [toArr, atItem, Arr.at, List.map_cons, lookup_map_cons]
  by_cases h : ρ dim = i
  · simp [h]
  · simp [h]

/-! ### Definitions as datasets -/

theorem lookup_items (d : Dict (Datum V)) (p : Key) : (items d).lookup p = d.get1 p := by
  induction d with
  | nil => rfl
  | leaf k a r ih =>
    simp only [items, List.lookup_cons, get1]
    by_cases h : k = p
    · subst h; simp
    · rw [if_neg h, beq_false_of_ne (fun e => h e.symm)]; exact ih
  | sub k a r _ ih =>
    simp only [items, List.lookup_cons, get1]
    by_cases h : k = p
    · subst h; simp
    · rw [if_neg h, beq_false_of_ne (fun e => h e.symm)]; exact ih

theorem items_fst (d : Dict (Datum V)) : (items d).map Prod.fst = d.keys := by
  induction d with
  | nil => rfl
  | leaf k a r ih => simp [items, keys, ih]
  | sub k a r _ ih => simp [items, keys, ih]

theorem keys_nodup {d : Dict (Datum V)} (h : d.WF) : d.keys.Nodup := by
  induction d with
  | nil => simp [keys]
  | leaf k a r ih => simp only [keys, List.nodup_cons]; exact ⟨h.1, ih h.2⟩
  | sub k a r _ ih => simp only [keys, List.nodup_cons]; exact ⟨h.1, ih h.2.2⟩

theorem lookup_none_of {β : Type} {l : List (String × β)} {p : String} (h : p ∉ l.map Prod.fst) :
    l.lookup p = none := by
  rw [List.lookup_eq_none_iff]
  intro x hx
  simp only [bne_iff_ne, ne_eq]
  intro e
  exact h (List.mem_map.2 ⟨x, hx, e.symm⟩)

theorem addSettings_at (ctx : Ctx V) (dim : String) (item : Key) (p : String) (ρ : String → Label) :
    ∀ (l : List (Key × Val (Datum V))) (ds out : DS V), (l.map Prod.fst).Nodup →
      addSettings ctx dim item ds l = .ok out →
      varAt out.vars p ρ = (varAt ds.vars p ρ).or (if ρ dim = item then saysAt ctx (l.lookup p) p ρ else none)
  | [], ds, out, _, h => by
      simp only [addSettings, Except.ok.injEq] at h
      subst h
      simp [saysAt]
  | (n, v) :: l, ds, out, hn, h => by
      simp only [List.map_cons, List.nodup_cons] at hn
      simp only [addSettings] at h
      rcases hq : prepare ctx n v with e | q
      · rw [hq] at h; cases h
      rw [hq] at h
      simp only [] at h
      rw [addSettings_at ctx dim item p ρ l _ _ hn.2 h]
      simp only [varAt_addVar, atItem_at, prepare_at hq, List.lookup_cons]
      by_cases hp : p = n
      · subst hp
        simp only [if_true, beq_self_eq_true, lookup_none_of hn.1, saysAt]
        by_cases hd : ρ dim = item
        · simp [hd]
        · simp [hd]
      · simp only [hp, if_false, beq_false_of_ne hp]

theorem defDs_at (ctx : Ctx V) (dim : String) (p : String) (ρ : String → Label) :
    ∀ (l : List (Key × Def V)) (ds out : DS V), (l.map Prod.fst).Nodup → (∀ x ∈ l, x.2.WF) →
      defDs ctx dim ds l = .ok out →
      varAt out.vars p ρ = (varAt ds.vars p ρ).or (match l.lookup (ρ dim) with
        | none => none
        | some d => saysAt ctx (d.get1 p) p ρ)
  | [], ds, out, _, _, h => by
      simp only [defDs, Except.ok.injEq] at h
      subst h
      simp
  | (i, d) :: l, ds, out, hn, hw, h => by
      simp only [List.map_cons, List.nodup_cons] at hn
      simp only [defDs] at h
      rcases hq : addSettings ctx dim i ds (items d) with e | ds'
      · rw [hq] at h; cases h
      rw [hq] at h
      simp only [] at h
      have hd := hw (i, d) (by simp)
      rw [defDs_at ctx dim p ρ l _ _ hn.2 (fun x hx => hw x (by simp [hx])) h,
        addSettings_at ctx dim i p ρ _ _ _ (by rw [items_fst]; exact keys_nodup hd) hq, lookup_items]
      simp only [List.lookup_cons]
      by_cases hi : ρ dim = i
      · rw [if_pos hi, hi]
        simp [lookup_none_of hn.1]
      · rw [if_neg hi, beq_false_of_ne hi]
        simp

theorem addSettings_nodup (ctx : Ctx V) (dim : String) (item : Key) :
    ∀ (l : List (Key × Val (Datum V))) (ds out : DS V), (ds.vars.map Prod.fst).Nodup →
      addSettings ctx dim item ds l = .ok out → (out.vars.map Prod.fst).Nodup
  | [], ds, out, hn, h => by
      simp only [addSettings, Except.ok.injEq] at h
      subst h; exact hn
  | (n, v) :: l, ds, out, hn, h => by
      simp only [addSettings] at h
      rcases hq : prepare ctx n v with e | q
      · rw [hq] at h; cases h
      rw [hq] at h
      exact addSettings_nodup ctx dim item l _ _ (nodup_addVar _ _ _ hn) h

theorem defDs_nodup (ctx : Ctx V) (dim : String) :
    ∀ (l : List (Key × Def V)) (ds out : DS V), (ds.vars.map Prod.fst).Nodup →
      defDs ctx dim ds l = .ok out → (out.vars.map Prod.fst).Nodup
  | [], ds, out, hn, h => by
      simp only [defDs, Except.ok.injEq] at h
      subst h; exact hn
  | (n, v) :: l, ds, out, hn, h => by
      simp only [defDs] at h
      rcases hq : addSettings ctx dim n ds (items v) with e | q
      · rw [hq] at h; cases h
      rw [hq] at h
      exact defDs_nodup ctx dim l _ _ (addSettings_nodup ctx dim n _ _ _ hn hq) h

theorem addSettings_names (ctx : Ctx V) (dim : String) (item : Key) (p : String) :
    ∀ (l : List (Key × Val (Datum V))) (ds out : DS V),
      addSettings ctx dim item ds l = .ok out →
      (p ∈ out.vars.map Prod.fst ↔ p ∈ ds.vars.map Prod.fst ∨ p ∈ l.map Prod.fst)
  | [], ds, out, h => by
      simp only [addSettings, Except.ok.injEq] at h
      subst h; simp
  | (n, v) :: l, ds, out, h => by
      simp only [addSettings] at h
      rcases hq : prepare ctx n v with e | q
      · rw [hq] at h; cases h
      rw [hq] at h
      rw [addSettings_names ctx dim item p l _ _ h, names_addVar]
      simp only [List.map_cons, List.mem_cons]
      tauto

theorem defDs_names (ctx : Ctx V) (dim : String) (p : String) :
    ∀ (l : List (Key × Def V)) (ds out : DS V),
      defDs ctx dim ds l = .ok out →
      (p ∈ out.vars.map Prod.fst ↔ p ∈ ds.vars.map Prod.fst ∨ ∃ x ∈ l, p ∈ x.2.keys)
  | [], ds, out, h => by
      simp only [defDs, Except.ok.injEq] at h
      subst h; simp
  | (n, v) :: l, ds, out, h => by
      simp only [defDs] at h
      rcases hq : addSettings ctx dim n ds (items v) with e | q
      · rw [hq] at h; cases h
      rw [hq] at h
      rw [defDs_names ctx dim p l _ _ h, addSettings_names ctx dim n p _ _ _ hq, items_fst]
      simp only [List.exists_mem_cons_iff]
      tauto

/-! ### Combining the nodes -/

theorem stack_dims_mem (d : String) : ∀ (l : List (List String)) (acc : List String), (d ∈ acc ∨ ∃ x ∈ l, d ∈ x) →
    d ∈ l.foldl joinDims acc
  | [], acc, h => by
      rcases h with h | ⟨x, hx, _⟩
      · exact h
      · cases hx
  | x :: l, acc, h => by
      rw [List.foldl_cons]
      apply stack_dims_mem d l
      rcases h with h | ⟨y, hy, hd⟩
      · exact .inl (mem_joinDims.2 (.inl h))
      · rcases List.mem_cons.1 hy with rfl | hy
        · exact .inl (mem_joinDims.2 (.inr hd))
        · exact .inr ⟨y, hy, hd⟩

theorem mem_of_lookup {β : Type} {l : List (String × β)} {k : String} {b : β} (h : l.lookup k = some b) :
    (k, b) ∈ l := by
  induction l with
  | nil => cases h
  | cons x l ih =>
    obtain ⟨j, c⟩ := x
    rw [List.lookup_cons] at h
    by_cases hk : k = j
    · subst hk
      simp only [beq_self_eq_true, Option.some.injEq] at h
      subst h; simp
    · rw [beq_false_of_ne hk] at h
      exact List.mem_cons_of_mem _ (ih h)

theorem stack_at (l : List (Label × Arr (Option (Scalar V)))) (ρ : String → Label) :
    (stack l).at ρ = match l.lookup (ρ "nodes") with
      | none => none
      | some a => a.at ρ := by
  simp only [stack, Arr.at, List.map_cons]
  rcases h : l.lookup (ρ "nodes") with _ | a
  · rfl
  · simp only []
    rw [pick_map]
    intro d hd
    exact stack_dims_mem d _ _ (.inr ⟨a.dims, List.mem_map.2 ⟨_, mem_of_lookup h, rfl⟩, hd⟩)

theorem foldl_fill_at (ρ : String → Label) : ∀ (l : List (Arr (Option (Scalar V)))) (a : Arr (Option (Scalar V))),
    (l.foldl fill a).at ρ = (a.at ρ).or (l.findSome? (fun b => b.at ρ))
  | [], a => by simp
  | b :: l, a => by
      rw [List.foldl_cons, foldl_fill_at ρ l, fill_at, List.findSome?_cons]
      rcases a.at ρ with _ | x
      · rcases b.at ρ with _ | y <;> simp
      · simp

theorem arraysOf_lookup (p : String) (n : Label) (ρ : String → Label) : ∀ (l : List (NodeData V)),
    (l.map NodeData.node).Nodup →
    (match (arraysOf l p).lookup n with
      | none => none
      | some a => a.at ρ) = (match l.find? (fun x => x.node == n) with
      | none => none
      | some x => varAt x.ds.vars p ρ)
  | [], _ => rfl
  | x :: l, hn => by
      simp only [List.map_cons, List.nodup_cons] at hn
      have ih := arraysOf_lookup p n ρ l hn.2
      simp only [arraysOf, List.filterMap_cons, List.find?_cons] at ih ⊢
      by_cases hx : x.node = n
      · have hnone : (l.filterMap (fun x => (x.ds.var p).map (fun a => (x.node, a)))).lookup n = none := by
          apply lookup_none_of
          simp only [List.mem_map, List.mem_filterMap, Option.map_eq_some_iff, not_exists, not_and]
          rintro y ⟨z, hz, a, _, rfl⟩ he
          exact hn.1 (by rw [hx, ← he]; exact List.mem_map.2 ⟨z, hz, rfl⟩)
        simp only [hx, beq_self_eq_true]
        rcases hv : x.ds.var p with _ | a
        · simp only [Option.map_none]
          rw [hnone]
          simp only [DS.var] at hv
          simp [varAt, hv]
        · simp only [Option.map_some, List.lookup_cons, beq_self_eq_true]
          simp only [DS.var] at hv
          simp [varAt, hv]
      · rw [beq_false_of_ne hx]
        simp only []
        rcases hv : x.ds.var p with _ | a
        · simp only [Option.map_none]; exact ih
        · simp only [Option.map_some, List.lookup_cons, beq_false_of_ne (fun e => hx e.symm)]
          exact ih

theorem findSome_arrays (p : String) (ρ : String → Label) : ∀ (l : List (NodeData V)),
    ((arraysOf l p).map Prod.snd).findSome? (fun b => b.at ρ) = l.findSome? (fun x => varAt x.ds.vars p ρ)
  | [] => rfl
  | x :: l => by
      have ih := findSome_arrays p ρ l
      simp only [arraysOf, List.filterMap_cons, List.findSome?_cons] at ih ⊢
      rcases hv : x.ds.vars.lookup p with _ | a
      · simp only [DS.var, hv, Option.map_none, varAt]; exact ih
      · simp only [DS.var, hv, Option.map_some, varAt, List.map_cons, List.findSome?_cons]
        simp only [DS.var] at ih
        rcases a.at ρ with _ | y
        · exact ih
        · rfl

theorem combineVar_at (l : List (NodeData V)) (hn : (l.map NodeData.node).Nodup) (p : String) (ρ : String → Label) :
    (combineVar l p).at ρ = if l.any (fun x => x.indexed.contains p) then
        (match l.find? (fun x => x.node == ρ "nodes") with
          | none => none
          | some x => varAt x.ds.vars p ρ)
      else l.findSome? (fun x => varAt x.ds.vars p ρ) := by
  unfold combineVar
  split
  · rw [stack_at, arraysOf_lookup p _ ρ l hn]
  · rw [foldl_fill_at, findSome_arrays]; simp

theorem lookup_map_pair {β : Type} (f : String → β) (p : String) : ∀ (l : List String),
    (l.map (fun x => (x, f x))).lookup p = if p ∈ l then some (f p) else none
  | [] => by simp
  | x :: l => by
      simp only [List.map_cons, List.lookup_cons, List.mem_cons]
      by_cases h : p = x
      · subst h; simp
      · rw [beq_false_of_ne h, lookup_map_pair f p l]; simp [h]

theorem combine_at (l : List (NodeData V)) (hn : (l.map NodeData.node).Nodup) (p : String) (ρ : String → Label) :
    varAt (combine l).vars p ρ = if l.any (fun x => x.indexed.contains p) then
        (match l.find? (fun x => x.node == ρ "nodes") with
          | none => none
          | some x => varAt x.ds.vars p ρ)
      else l.findSome? (fun x => varAt x.ds.vars p ρ) := by
  simp only [combine, varAt, lookup_map_pair]
  by_cases hp : p ∈ allNames l
  · rw [if_pos hp]
    simp only []
    rw [combineVar_at l hn]; rfl
  · rw [if_neg hp]
    simp only []
    have hv : ∀ x ∈ l, varAt x.ds.vars p ρ = none := by
      intro x hx
      apply varAt_none
      intro hc
      exact hp (List.mem_dedup.2 (List.mem_flatMap.2 ⟨x, hx, hc⟩))
    split
    · rcases hf : l.find? (fun x => x.node == ρ "nodes") with _ | x
      · simp [hf]
      · simp only [hf]
        exact (hv x (List.mem_of_find?_eq_some hf)).symm
    · symm
      rw [List.findSome?_eq_none_iff]
      exact hv

theorem combine_nodup (l : List (NodeData V)) : ((combine l).vars.map Prod.fst).Nodup := by
  simp only [combine, List.map_map]
  have : (Prod.fst ∘ fun p => (p, combineVar l p)) = (id : String → String) := rfl
  rw [this, List.map_id]
  exact List.nodup_dedup _

theorem mergeNodes_at [DecidableEq V] {a b out : DS V} (h : mergeNodes a b = .ok out)
    (hb : (b.vars.map Prod.fst).Nodup) (p : String) (ρ : String → Label) :
    varAt out.vars p ρ = (varAt a.vars p ρ).or (varAt b.vars p ρ) := by
  simp only [mergeNodes] at h
  split at h
  · cases h
  · simp only [Except.ok.injEq] at h
    subst h
    exact varAt_foldl p ρ _ _ hb

theorem addToDataset_at (ds new : DS V) (hd : (ds.vars.map Prod.fst).Nodup) (p : String) (ρ : String → Label) :
    valueOf (addToDataset ds new) p ρ = (valueOf new p ρ).or (valueOf ds p ρ) :=
  varAt_foldl p ρ _ _ hd

theorem addToDataset_nodup (ds new : DS V) (hn : (new.vars.map Prod.fst).Nodup) :
    ((addToDataset ds new).vars.map Prod.fst).Nodup := nodup_foldl _ _ hn

/-! ### Dropping labels -/

theorem zip_map_contains (dims : List String) (ρ : String → Label) (d : String) (l : Label) :
    (dims.zip (dims.map ρ)).contains (d, l) = (dims.contains d && decide (ρ d = l)) := by
  induction dims with
  | nil => simp
  | cons x xs ih =>
    simp only [List.map_cons, List.zip_cons_cons, List.contains_cons, ih]
    by_cases h : d = x
    · subst h
      by_cases hl : ρ d = l
      · subst hl; simp
      · have : ((d, l) == (d, ρ d)) = false := by simp [Ne.symm hl]
        simp [hl, this]
    · have : ((d, l) == (x, ρ x)) = false := by simp [h]
      simp [beq_false_of_ne h, this]

theorem lookup_map_snd {β γ : Type} (f : β → γ) (p : String) : ∀ (l : List (String × β)),
    (l.map (fun x => (x.1, f x.2))).lookup p = (l.lookup p).map f
  | [] => rfl
  | (n, b) :: l => by
      simp only [List.map_cons, List.lookup_cons]
      by_cases h : p = n
      · subst h; simp
      · rw [beq_false_of_ne h]; exact lookup_map_snd f p l

/-- An input depends on a dimension. -/
def overDim (ds : DS V) (p d : String) : Prop := ∃ a, ds.vars.lookup p = some a ∧ d ∈ a.dims

theorem dropLabel_at (dim : String) (ds : DS V) (l : Label) (p : String) (ρ : String → Label) :
    valueOf (dropLabel dim ds l) p ρ =
      match ds.vars.lookup p with
      | none => none
      | some a => if a.dims.contains dim && decide (ρ dim = l) then none else a.at ρ := by
  simp only [valueOf, dropLabel, lookup_map_snd (fun a : Arr (Option (Scalar V)) => (⟨a.dims, fun c =>
    if (a.dims.zip c).contains (dim, l) then none else a.val c⟩ : Arr (Option (Scalar V))))]
  rcases ds.vars.lookup p with _ | a
  · rfl
  · simp only [Option.map_some, Arr.at, zip_map_contains]

theorem dropLabel_dims (dim : String) (ds : DS V) (l : Label) (p : String) :
    ((dropLabel dim ds l).vars.lookup p).map Arr.dims = (ds.vars.lookup p).map Arr.dims := by
  simp only [dropLabel, lookup_map_snd (fun a : Arr (Option (Scalar V)) => (⟨a.dims, fun c =>
    if (a.dims.zip c).contains (dim, l) then none else a.val c⟩ : Arr (Option (Scalar V))))]
  rcases ds.vars.lookup p with _ | a <;> rfl

theorem dropLabels_at (dim : String) (p : String) (ρ : String → Label) :
    ∀ (ls : List Label) (ds : DS V), valueOf (ls.foldl (dropLabel dim) ds) p ρ =
      (if (∃ a, ds.vars.lookup p = some a ∧ dim ∈ a.dims) ∧ ρ dim ∈ ls then none else valueOf ds p ρ) ∧
      ((ls.foldl (dropLabel dim) ds).vars.lookup p).map Arr.dims = (ds.vars.lookup p).map Arr.dims ∧
      (ls.foldl (dropLabel dim) ds).vars.map Prod.fst = ds.vars.map Prod.fst
  | [], ds => by simp
  | l :: ls, ds => by
      obtain ⟨h1, h2, h3⟩ := dropLabels_at dim p ρ ls (dropLabel dim ds l)
      rw [List.foldl_cons]
      refine ⟨?_, ?_, ?_⟩
      · rw [h1, dropLabel_at]
        have hd := dropLabel_dims dim ds l p
        rcases hv : ds.vars.lookup p with _ | a
        · rw [hv] at hd
          simp only [Option.map_none, Option.map_eq_none_iff] at hd
          simp [hd, valueOf, hv]
        · rw [hv] at hd
          simp only [Option.map_some, Option.map_eq_some_iff] at hd
          obtain ⟨b, hb, hbd⟩ := hd
          simp only [hb, Option.some.injEq, exists_eq_left', hbd, valueOf, hv, List.mem_cons, Bool.and_eq_true,
            List.contains_eq_mem, decide_eq_true_eq]
          by_cases hdim : dim ∈ a.dims
          · by_cases hl : ρ dim = l
            · simp [hdim, hl]
            · simp [hdim, hl]
          · simp [hdim]
      · rw [h2, dropLabel_dims]
      · rw [h3]
        simp [dropLabel]

end ModelData
end Calliope
