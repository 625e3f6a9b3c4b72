import Verif.Spec.Serialise

/-!
# Lemmas about `_serialise` and `_deserialise`
-/

set_option linter.unusedSimpArgs false

namespace Calliope
namespace Serialise

/-- What `_serialise` makes of one value. -/
def conv (Y : Yaml) : AVal → AVal
  | .dict d => .str (Y.dump d)
  | .bool b => .int (if b then 1 else 0)
  | .none => .str "None"
  | .set l => .list l
  | v => v

/-! ### Loops over keys -/

/-- Apply `f` at the listed keys. -/
def atKeys (ks : List String) (f : AVal → AVal) (a : Attrs) : Attrs :=
  a.map (fun e => if e.1 ∈ ks then (e.1, f e.2) else e)

theorem atKeys_keys (ks f a) : (atKeys ks f a).map Prod.fst = a.map Prod.fst := by
  simp only [atKeys, List.map_map]
  apply List.map_congr_left
  intro e _
  simp only [Function.comp]; split <;> rfl

theorem put_new (a : Attrs) (k v) (h : k ∉ a.map Prod.fst) : put a k v = a ++ [(k, v)] := by
  induction a with
  | nil => rfl
  | cons e a ih =>
    obtain ⟨k', v'⟩ := e
    simp only [List.map_cons, List.mem_cons, not_or] at h
    simp [put, Ne.symm h.1, ih h.2]

theorem put_old (a : Attrs) (k v) (hn : (a.map Prod.fst).Nodup) (h : k ∈ a.map Prod.fst) :
    put a k v = atKeys [k] (fun _ => v) a := by
  induction a with
  | nil => simp at h
  | cons e a ih =>
    obtain ⟨k', v'⟩ := e
    simp only [List.map_cons, List.nodup_cons] at hn
    simp only [put, atKeys, List.map_cons, List.mem_singleton]
    split
    · rename_i hk
      subst hk
      congr 1
      symm
      calc List.map (fun e => if e.1 = k' then (e.1, v) else e) a = List.map id a := by
            apply List.map_congr_left
            intro e he
            have : e.1 ≠ k' := fun h => hn.1 (h ▸ List.mem_map.2 ⟨e, he, rfl⟩)
            simp [this]
        _ = a := List.map_id _
    · rename_i hk
      simp only [List.map_cons, List.mem_cons] at h
      rcases h with h | h
      · exact absurd h.symm hk
      · rw [ih hn.2 h]; simp [atKeys]

theorem lookup_mem {a : Attrs} (hn : (a.map Prod.fst).Nodup) {k v} :
    a.lookup k = some v ↔ (k, v) ∈ a := by
  induction a with
  | nil => simp
  | cons e a ih =>
    obtain ⟨k', v'⟩ := e
    simp only [List.map_cons, List.nodup_cons] at hn
    by_cases h : k = k'
    · subst h
      simp only [List.lookup, BEq.rfl, List.mem_cons, Prod.mk.injEq, true_and, Option.some.injEq]
      constructor
      · intro h; exact Or.inl h.symm
      · rintro (h | h)
        · exact h.symm
        · exact absurd (List.mem_map.2 ⟨(k, v), h, rfl⟩) hn.1
    · have hb : (k == k') = false := by simpa using h
      simp [List.lookup, hb, ih hn.2, h]

theorem lookup_some_of_mem {a : Attrs} {k} (h : k ∈ a.map Prod.fst) : ∃ v, a.lookup k = some v := by
  induction a with
  | nil => simp at h
  | cons e a ih =>
    obtain ⟨k', v'⟩ := e
    by_cases hk : k = k'
    · exact ⟨v', by simp [List.lookup, hk]⟩
    · have hb : (k == k') = false := by simpa using hk
      simp only [List.map_cons, List.mem_cons, hk, false_or] at h
      obtain ⟨v, hv⟩ := ih h
      exact ⟨v, by simp [List.lookup, hb, hv]⟩

theorem atKeys_put (a : Attrs) (hn : (a.map Prod.fst).Nodup) (k v) (f : AVal → AVal) (ks)
    (hk : k ∉ ks) (hl : a.lookup k = some v) :
    atKeys ks f (put a k (f v)) = atKeys (k :: ks) f a := by
  have hmem : (k, v) ∈ a := (lookup_mem hn).1 hl
  rw [put_old a k _ hn (List.mem_map.2 ⟨_, hmem, rfl⟩)]
  simp only [atKeys, List.map_map]
  apply List.map_congr_left
  intro e he
  simp only [Function.comp, List.mem_cons]
  by_cases h : e.1 = k
  · have : e.2 = v := by
      have h1 : a.lookup k = some e.2 := (lookup_mem hn).2 (by rw [← h]; exact he)
      rw [hl] at h1; exact (Option.some.inj h1).symm
    simp [h, hk, this]
  · simp [h]

theorem put_keys (a : Attrs) (k v) (h : k ∈ a.map Prod.fst) :
    (put a k v).map Prod.fst = a.map Prod.fst := by
  induction a with
  | nil => simp at h
  | cons e a ih =>
    obtain ⟨k', v'⟩ := e
    simp only [put]; split
    · simp
    · rename_i hk
      simp only [List.map_cons, List.mem_cons] at h
      rcases h with h | h
      · exact absurd h.symm hk
      · simp [ih h]

theorem mapKeys_eq (f : AVal → AVal) (ks : List String) (hks : ks.Nodup) : ∀ (a : Attrs),
    (a.map Prod.fst).Nodup → (∀ k ∈ ks, k ∈ a.map Prod.fst) → mapKeys f ks a = atKeys ks f a := by
  induction ks with
  | nil => intro a _ _; simp [mapKeys, atKeys]
  | cons k ks ih =>
    intro a hn hsub
    obtain ⟨v, hv⟩ := lookup_some_of_mem (hsub k (by simp))
    rw [List.nodup_cons] at hks
    simp only [mapKeys, hv]
    rw [ih hks.2, atKeys_put a hn k v f ks hks.1 hv]
    · rw [put_keys _ _ _ (hsub k (by simp))]; exact hn
    · rw [put_keys _ _ _ (hsub k (by simp))]; exact fun k' h => hsub k' (by simp [h])

theorem forKeys_eq (f : AVal → Except Err AVal) (g : AVal → AVal) (ks : List String)
    (hks : ks.Nodup) : ∀ (a : Attrs), (a.map Prod.fst).Nodup → (∀ k ∈ ks, k ∈ a.map Prod.fst) →
    (∀ e ∈ a, e.1 ∈ ks → f e.2 = .ok (g e.2)) → forKeys f ks a = .ok (atKeys ks g a) := by
  induction ks with
  | nil => intro a _ _ _; simp [forKeys, atKeys]
  | cons k ks ih =>
    intro a hn hsub hf
    obtain ⟨v, hv⟩ := lookup_some_of_mem (hsub k (by simp))
    rw [List.nodup_cons] at hks
    have hmem : (k, v) ∈ a := (lookup_mem hn).1 hv
    simp only [forKeys, hv, hf (k, v) hmem (by simp)]
    rw [ih hks.2, atKeys_put a hn k v g ks hks.1 hv]
    · rw [put_keys _ _ _ (hsub k (by simp))]; exact hn
    · rw [put_keys _ _ _ (hsub k (by simp))]; exact fun k' h => hsub k' (by simp [h])
    · intro e he hek
      rw [put_old _ _ _ hn (hsub k (by simp))] at he
      simp only [atKeys, List.mem_map, List.mem_singleton] at he
      obtain ⟨e0, he0, rfl⟩ := he
      have : e0.1 ≠ k := by
        intro h; simp only [h, if_true] at hek; exact hks.1 hek
      simp only [if_neg this] at hek ⊢
      exact hf e0 he0 (by simp [hek])

theorem foldl_put_eq (v : AVal) (ks : List String) (hks : ks.Nodup) : ∀ (a : Attrs),
    (a.map Prod.fst).Nodup → (∀ k ∈ ks, k ∈ a.map Prod.fst) →
    ks.foldl (fun a k => put a k v) a = atKeys ks (fun _ => v) a := by
  induction ks with
  | nil => intro a _ _; simp [atKeys]
  | cons k ks ih =>
    intro a hn hsub
    obtain ⟨w, hw⟩ := lookup_some_of_mem (hsub k (by simp))
    rw [List.nodup_cons] at hks
    simp only [List.foldl_cons]
    rw [ih hks.2]
    · exact atKeys_put a hn k w (fun _ => v) ks hks.1 hw
    · rw [put_keys _ _ _ (hsub k (by simp))]; exact hn
    · rw [put_keys _ _ _ (hsub k (by simp))]; exact fun k' h => hsub k' (by simp [h])

theorem keysWhere_nodup (p) (a : Attrs) (hn : (a.map Prod.fst).Nodup) : (keysWhere p a).Nodup := by
  have : (keysWhere p a).Sublist (a.map Prod.fst) := (List.filter_sublist).map _
  exact hn.sublist this

theorem mem_keysWhere (p) (a : Attrs) (hn : (a.map Prod.fst).Nodup) {e} (he : e ∈ a) :
    e.1 ∈ keysWhere p a ↔ p e.2 = true := by
  simp only [keysWhere, List.mem_map, List.mem_filter]
  constructor
  · rintro ⟨e', ⟨h1, h2⟩, h3⟩
    have a1 := (lookup_mem hn).2 (show (e'.1, e'.2) ∈ a from h1)
    have a2 := (lookup_mem hn).2 (show (e.1, e.2) ∈ a from he)
    rw [h3, a2] at a1
    rw [Option.some.inj a1]; exact h2
  · intro h; exact ⟨e, ⟨he, h⟩, rfl⟩

theorem keysWhere_sub (p) (a : Attrs) : ∀ k ∈ keysWhere p a, k ∈ a.map Prod.fst := by
  intro k hk
  simp only [keysWhere, List.mem_map, List.mem_filter] at hk
  obtain ⟨e, ⟨h1, _⟩, h2⟩ := hk
  exact List.mem_map.2 ⟨e, h1, h2⟩

theorem keysWhere_append (p) (a b : Attrs) : keysWhere p (a ++ b) = keysWhere p a ++ keysWhere p b := by
  simp [keysWhere]

/-- Pointwise change of values. -/
def mapVals (f : AVal → AVal) (a : Attrs) : Attrs := a.map (fun e => (e.1, f e.2))

theorem mapVals_keys (f a) : (mapVals f a).map Prod.fst = a.map Prod.fst := by
  simp [mapVals, Function.comp_def]

theorem keysWhere_mapVals (p f) (a : Attrs) : keysWhere p (mapVals f a) = keysWhere (fun v => p (f v)) a := by
  simp only [keysWhere, mapVals, List.filter_map, List.map_map]; rfl

theorem mapVals_mapVals (f g a) : mapVals f (mapVals g a) = mapVals (fun v => f (g v)) a := by
  simp [mapVals, Function.comp_def]

theorem mapVals_congr {f g : AVal → AVal} {a : Attrs} (h : ∀ e ∈ a, f e.2 = g e.2) :
    mapVals f a = mapVals g a := by
  apply List.map_congr_left; intro e he; rw [h e he]

theorem keysWhere_congr {p q : AVal → Bool} {a : Attrs} (h : ∀ e ∈ a, p e.2 = q e.2) :
    keysWhere p a = keysWhere q a := by
  simp only [keysWhere]
  congr 1
  apply List.filter_congr
  intro e he; rw [h e he]

/-- `atKeys` at the keys where `p` holds of the original value, over changed values and with a
bookkeeping tail that has none of these keys. -/
theorem atKeys_block (a : Attrs) (ks : List String) (p : AVal → Bool)
    (hks : ∀ e ∈ a, e.1 ∈ ks ↔ p e.2 = true) (f g : AVal → AVal) (t : Attrs)
    (ht : ∀ e ∈ t, e.1 ∉ ks) :
    atKeys ks f (mapVals g a ++ t) = mapVals (fun v => if p v then f (g v) else g v) a ++ t := by
  simp only [atKeys, List.map_append, mapVals, List.map_map]
  congr 1
  · apply List.map_congr_left
    intro e he
    simp only [Function.comp, hks e he]
    split <;> rfl
  · calc List.map (fun e => if e.1 ∈ ks then (e.1, f e.2) else e) t = List.map id t := by
          apply List.map_congr_left
          intro e he; simp [ht e he]
      _ = t := List.map_id _

/-! ### `_serialise` -/

def isSingleSet : AVal → Bool
  | .set [_] => true
  | _ => false

/-- The bookkeeping entries written by `_serialise`. -/
def tail (a : Attrs) (singles : List String) : Attrs :=
  [("serialised_single_element_list", names singles),
   ("serialised_dicts", names (keysWhere isDict a)),
   ("serialised_bools", names (keysWhere isBool a)),
   ("serialised_nones", names (keysWhere isNone a)),
   ("serialised_sets", names (keysWhere isSet a))]

theorem not_reserved {a : Attrs} (h : Proper a) {k} (hk : k ∈ reserved) : k ∉ a.map Prod.fst := by
  intro hm
  obtain ⟨e, he, rfl⟩ := List.mem_map.1 hm
  exact h.2 e he hk

theorem mapVals_id (a : Attrs) : mapVals (fun v => v) a = a := by
  simp [mapVals]

theorem atKeys_append_left (ks f) (a b : Attrs) (h : ∀ k ∈ ks, k ∉ a.map Prod.fst) :
    atKeys ks f (a ++ b) = a ++ atKeys ks f b := by
  simp only [atKeys, List.map_append]
  congr 1
  calc _ = List.map id a := by
        apply List.map_congr_left
        intro e he
        have : e.1 ∉ ks := fun hk => h _ hk (List.mem_map.2 ⟨e, he, rfl⟩)
        simp [this]
    _ = a := List.map_id _

/-- One conversion step of `_serialise`. -/
theorem step (a : Attrs) (h : Proper a) (g f : AVal → AVal) (p q : AVal → Bool) (t : Attrs)
    (hq : ∀ v, p (g v) = q v) (hp : ∀ e ∈ t, p e.2 = false) (ht : ∀ e ∈ t, e.1 ∈ reserved)
    (htn : (t.map Prod.fst).Nodup) :
    keysWhere p (mapVals g a ++ t) = keysWhere q a ∧
    mapKeys f (keysWhere q a) (mapVals g a ++ t) =
      mapVals (fun v => if q v then f (g v) else g v) a ++ t := by
  constructor
  · rw [keysWhere_append, keysWhere_mapVals]
    have : keysWhere p t = [] := by
      simp only [keysWhere, List.map_eq_nil_iff, List.filter_eq_nil_iff]
      intro e he; simp [hp e he]
    rw [this, List.append_nil]
    exact keysWhere_congr (fun e _ => hq e.2)
  · have hdis : ∀ e ∈ t, e.1 ∉ keysWhere q a := by
      intro e he hk
      exact not_reserved h (ht e he) (keysWhere_sub q a _ hk)
    rw [mapKeys_eq f _ (keysWhere_nodup q a h.1)]
    · exact atKeys_block a _ q (fun e he => mem_keysWhere q a h.1 he) f g t hdis
    · rw [List.map_append, mapVals_keys, List.nodup_append]
      refine ⟨h.1, htn, ?_⟩
      intro x hx y hy hxy
      subst hxy
      obtain ⟨e, he, rfl⟩ := List.mem_map.1 hy
      exact not_reserved h (ht e he) hx
    · intro k hk
      rw [List.map_append, mapVals_keys]
      exact List.mem_append_left _ (keysWhere_sub q a k hk)

theorem put_mapVals_new (a : Attrs) (h : Proper a) (g : AVal → AVal) (t : Attrs) (k v)
    (hk : k ∈ reserved) (ht : k ∉ t.map Prod.fst) :
    put (mapVals g a ++ t) k v = mapVals g a ++ (t ++ [(k, v)]) := by
  rw [put_new, List.append_assoc]
  rw [List.map_append, mapVals_keys, List.mem_append]
  rintro (h1 | h1)
  · exact not_reserved h hk h1
  · exact ht h1

theorem convBlock_eq (a : Attrs) (h : Proper a) (g f : AVal → AVal) (p : AVal → Bool) (t : Attrs)
    (name : String) (hq : ∀ v, p (g v) = p v) (hp : ∀ e ∈ t, p e.2 = false)
    (ht : ∀ e ∈ t, e.1 ∈ reserved) (htn : (t.map Prod.fst).Nodup) (hname : name ∈ reserved)
    (hnew : name ∉ t.map Prod.fst) (hpn : ∀ l, p (names l) = false) :
    convBlock name p f (mapVals g a ++ t) =
      mapVals (fun v => if p v then f (g v) else g v) a ++ (t ++ [(name, names (keysWhere p a))]) := by
  have h1 := step a h g f p p t hq hp ht htn
  simp only [convBlock, h1.1]
  rw [put_mapVals_new a h g t _ _ hname hnew]
  refine (step a h g f p p _ hq ?_ ?_ ?_).2
  · intro e he
    rcases List.mem_append.1 he with he | he
    · exact hp e he
    · simp at he; subst he; exact hpn _
  · intro e he
    rcases List.mem_append.1 he with he | he
    · exact ht e he
    · simp at he; subst he; exact hname
  · rw [List.map_append, List.nodup_append]
    refine ⟨htn, by simp, ?_⟩
    intro x hx y hy hxy
    simp at hy; subst hy; subst hxy; exact hnew hx

/-- Values after io.py:79-94. -/
def conv3 (Y : Yaml) : AVal → AVal
  | .dict d => .str (Y.dump d)
  | .bool b => .int (if b then 1 else 0)
  | .none => .str "None"
  | v => v

theorem convertAll_eq (Y : Yaml) (a : Attrs) (h : Proper a) :
    convertAll Y a = mapVals (conv3 Y) a ++
      [("serialised_single_element_list", names (keysWhere isSingle a)),
       ("serialised_dicts", names (keysWhere isDict a)),
       ("serialised_bools", names (keysWhere isBool a)),
       ("serialised_nones", names (keysWhere isNone a))] := by
  have h0 : put a "serialised_single_element_list" (names (keysWhere isSingle a)) =
      mapVals (fun v => v) a ++ [("serialised_single_element_list", names (keysWhere isSingle a))] := by
    have := put_mapVals_new a h (fun v => v) [] "serialised_single_element_list"
      (names (keysWhere isSingle a)) (by decide) (by simp)
    simpa [mapVals] using this
  simp only [convertAll, h0]
  rw [convBlock_eq a h (fun v => v) (dumpVal Y) isDict _ _ (fun _ => rfl) (by simp [names, isDict])
    (by simp [reserved]) (by simp) (by decide) (by simp) (fun _ => rfl)]
  rw [convBlock_eq a h _ intVal isBool _ _ (fun v => by cases v <;> rfl) (by simp [names, isBool])
    (by simp [reserved]) (by simp) (by decide) (by simp) (fun _ => rfl)]
  rw [convBlock_eq a h _ (fun _ => .str "None") isNone _ _ (fun v => by cases v <;> rfl) (by simp [names, isNone])
    (by simp [reserved]) (by simp) (by decide) (by simp) (fun _ => rfl)]
  congr 1
  apply mapVals_congr
  intro e _
  cases e.2 <;> rfl

theorem serialise_eq (Y : Yaml) (a : Attrs) (h : Proper a) (hs : ∀ e ∈ a, Saveable Y e.2) :
    ∃ singles, serialise Y a = (mapVals (conv Y) a ++ tail a singles, true) ∧ singles.Nodup ∧
      (∀ k ∈ singles, k ∈ a.map Prod.fst) ∧
      ∀ e ∈ a, e.1 ∈ singles ↔ (isSingle e.2 || isSingleSet e.2) = true := by
  simp only [serialise, convertAll_eq Y a h]
  have s1 := step a h (conv3 Y) listVal isSet isSet
    [("serialised_single_element_list", names (keysWhere isSingle a)),
       ("serialised_dicts", names (keysWhere isDict a)),
       ("serialised_bools", names (keysWhere isBool a)),
       ("serialised_nones", names (keysWhere isNone a))]
    (fun v => by cases v <;> rfl) (by simp [names, isSet]) (by simp [reserved]) (by simp)
  rw [s1.1, s1.2]
  have hconv : (fun v => if isSet v = true then listVal (conv3 Y v) else conv3 Y v) = conv Y := by
    funext v; cases v <;> rfl
  rw [hconv]
  have hbad : ¬ ((mapVals (conv Y) a ++ [("serialised_single_element_list", names (keysWhere isSingle a)),
       ("serialised_dicts", names (keysWhere isDict a)),
       ("serialised_bools", names (keysWhere isBool a)),
       ("serialised_nones", names (keysWhere isNone a))]).any (fun e => badList e.2) = true) := by
    simp only [Bool.not_eq_true, List.any_eq_false]
    intro e he
    rw [List.mem_append] at he
    rcases he with he | he
    · simp only [mapVals, List.mem_map] at he
      obtain ⟨e0, he0, rfl⟩ := he
      have := hs e0 he0
      rcases e0 with ⟨k, v⟩
      have hall : ∀ l : List Elem, AllStr l → (l.any (fun e => match e with | .str _ => false | .other _ => true)) ≠ true := by
        intro l hl
        simp only [ne_eq, Bool.not_eq_true, List.any_eq_false]
        intro x hx; obtain ⟨s, rfl⟩ := hl x hx; simp
      cases v <;> simp only [conv, badList] <;> first | (simp; done) | exact Bool.eq_false_iff.2 (hall _ this)
    · simp only [List.mem_cons, List.not_mem_nil, or_false] at he
      rcases he with rfl | rfl | rfl | rfl <;> simp [names, badList]
  rw [if_neg hbad, put_mapVals_new a h _ _ _ _ (by decide) (by simp)]
  have hlook : ∀ e ∈ a, isSingleAt (mapVals (conv Y) a ++
      [("serialised_single_element_list", names (keysWhere isSingle a)),
       ("serialised_dicts", names (keysWhere isDict a)),
       ("serialised_bools", names (keysWhere isBool a)),
       ("serialised_nones", names (keysWhere isNone a))]) e.1 = isSingle (conv Y e.2) := by
    intro e he
    have hn : ((mapVals (conv Y) a ++
      [("serialised_single_element_list", names (keysWhere isSingle a)),
       ("serialised_dicts", names (keysWhere isDict a)),
       ("serialised_bools", names (keysWhere isBool a)),
       ("serialised_nones", names (keysWhere isNone a))]).map Prod.fst).Nodup := by
      rw [List.map_append, mapVals_keys, List.nodup_append]
      refine ⟨h.1, by simp, ?_⟩
      intro x hx y hy hxy
      subst hxy
      refine not_reserved h ?_ hx
      simp only [List.map_cons, List.map_nil, List.mem_cons, List.not_mem_nil, or_false] at hy
      rcases hy with h | h | h | h <;> simp [reserved, h]
    have : (e.1, conv Y e.2) ∈ mapVals (conv Y) a ++
      [("serialised_single_element_list", names (keysWhere isSingle a)),
       ("serialised_dicts", names (keysWhere isDict a)),
       ("serialised_bools", names (keysWhere isBool a)),
       ("serialised_nones", names (keysWhere isNone a))] :=
      List.mem_append_left _ (List.mem_map.2 ⟨e, he, rfl⟩)
    simp only [isSingleAt, (lookup_mem hn).2 this]
  generalize isSingleAt (mapVals (conv Y) a ++
      [("serialised_single_element_list", names (keysWhere isSingle a)),
       ("serialised_dicts", names (keysWhere isDict a)),
       ("serialised_bools", names (keysWhere isBool a)),
       ("serialised_nones", names (keysWhere isNone a))]) = Q at hlook
  refine ⟨keysWhere isSingle a ++ (keysWhere isSet a).filter Q, Prod.ext ?_ rfl, ?_, ?_, ?_⟩
  · simp only
    rw [put_old]
    · rw [atKeys_append_left]
      · simp [atKeys, tail]
      · intro k hk
        simp at hk; subst hk
        rw [mapVals_keys]; exact not_reserved h (by decide)
    · rw [List.map_append, mapVals_keys, List.nodup_append]
      refine ⟨h.1, by simp, ?_⟩
      intro x hx y hy hxy
      subst hxy
      refine not_reserved h ?_ hx
      simp only [List.cons_append, List.nil_append, List.map_cons, List.map_nil, List.mem_cons, List.not_mem_nil, or_false] at hy
      rcases hy with h | h | h | h | h <;> simp [reserved, h]
    · simp
  · rw [List.nodup_append]
    refine ⟨keysWhere_nodup _ _ h.1, (keysWhere_nodup _ _ h.1).filter _, ?_⟩
    intro x hx y hy hxy
    subst hxy
    rw [List.mem_filter] at hy
    obtain ⟨e, he, rfl⟩ := List.mem_map.1 (keysWhere_sub _ _ _ hx)
    have h1 := (mem_keysWhere isSingle a h.1 he).1 hx
    have h2 := (mem_keysWhere isSet a h.1 he).1 hy.1
    cases hv : e.2 <;> rw [hv] at h1 h2 <;> simp [isSingle, isSet] at h1 h2
  · intro k hk
    rcases List.mem_append.1 hk with hk | hk
    · exact keysWhere_sub _ _ _ hk
    · exact keysWhere_sub _ _ _ (List.mem_filter.1 hk).1
  · intro e he
    rw [List.mem_append, List.mem_filter, mem_keysWhere _ a h.1 he, mem_keysWhere _ a h.1 he, hlook e he]
    cases e.2 <;> simp [isSingle, isSet, isSingleSet, conv]
    split <;> split <;> simp_all

/-! ### `_deserialise` -/

theorem lookup_block (a : Attrs) (h : Proper a) (g t k) (hk : k ∈ reserved) :
    (mapVals g a ++ t).lookup k = t.lookup k := by
  have : k ∉ (mapVals g a).map Prod.fst := by rw [mapVals_keys]; exact not_reserved h hk
  generalize mapVals g a = b at this
  induction b with
  | nil => rfl
  | cons e b ih =>
    simp only [List.map_cons, List.mem_cons, not_or] at this
    have hb : (k == e.1) = false := by simpa using this.1
    simp only [List.cons_append, List.lookup, hb]
    exact ih this.2

theorem drop_block (a : Attrs) (h : Proper a) (g t k) (hk : k ∈ reserved) :
    drop (mapVals g a ++ t) k = mapVals g a ++ drop t k := by
  simp only [drop, List.filter_append]
  congr 1
  rw [List.filter_eq_self]
  intro e he
  have : e.1 ≠ k := by
    rintro rfl
    refine not_reserved h hk ?_
    rw [← mapVals_keys g a]
    exact List.mem_map.2 ⟨e, he, rfl⟩
  simpa using this

theorem popList_block (a : Attrs) (h : Proper a) (g t k v) (hk : k ∈ reserved)
    (ht : t.lookup k = some v) :
    popList (mapVals g a ++ t) k = ((listify v).map asName, mapVals g a ++ drop t k) := by
  simp only [popList, lookup_block a h g t k hk, ht, drop_block a h g t k hk]

/-- One restoring loop of `_deserialise`. -/
theorem forKeys_block (a : Attrs) (h : Proper a) (f : AVal → Except Err AVal) (f' g : AVal → AVal)
    (ks : List String) (hks : ks.Nodup) (hsub : ∀ k ∈ ks, k ∈ a.map Prod.fst) (p : AVal → Bool)
    (hp : ∀ e ∈ a, e.1 ∈ ks ↔ p e.2 = true) (t : Attrs) (ht : ∀ e ∈ t, e.1 ∈ reserved)
    (htn : (t.map Prod.fst).Nodup)
    (hf : ∀ e ∈ a, p e.2 = true → f (g e.2) = .ok (f' (g e.2))) :
    forKeys f ks (mapVals g a ++ t) =
      .ok (mapVals (fun v => if p v then f' (g v) else g v) a ++ t) := by
  rw [forKeys_eq f f' ks hks]
  · rw [atKeys_block a ks p hp f' g t]
    intro e he hk
    exact not_reserved h (ht e he) (hsub _ hk)
  · rw [List.map_append, mapVals_keys, List.nodup_append]
    refine ⟨h.1, htn, ?_⟩
    intro x hx y hy hxy
    subst hxy
    obtain ⟨e, he, rfl⟩ := List.mem_map.1 hy
    exact not_reserved h (ht e he) hx
  · intro k hk; rw [List.map_append, mapVals_keys]; exact List.mem_append_left _ (hsub k hk)
  · intro e he hk
    rcases List.mem_append.1 he with he | he
    · obtain ⟨e0, he0, rfl⟩ := List.mem_map.1 he
      exact hf e0 he0 ((hp e0 he0).1 hk)
    · exact absurd (hsub _ hk) (not_reserved h (ht e he))

theorem readText_ok (Y : Yaml) (d : Def) (h : YamlSafe Y d) : readText Y (Y.dump d) = .ok d := by
  simp only [readText, h.1, Imports.resolveImports, h.2]
  rfl

/-- Restoring what `_serialise` made of `a`, directly (`σ = id`) or after the file changed the
values (`σ = store`). -/
theorem deserialise_eq (Y : Yaml) (a : Attrs) (h : Proper a) (hs : ∀ e ∈ a, Saveable Y e.2)
    (σ : AVal → AVal) (hσn : ∀ l, (listify (σ (names l))).map asName = l)
    (hstr : ∀ s, σ (.str s) = .str s) (hint : ∀ i, σ (.int i) = .int i)
    (hset : ∀ l, AllStr l → (isSingleSet (.set l) = true → .list (listify (σ (.list l))) = AVal.list l) ∧
      (isSingleSet (.set l) = false → toSet (σ (.list l)) = .ok (.set l)))
    (hlist : ∀ e ∈ a, ∀ l, e.2 = .list l → (isSingle (.list l) = true → listify (σ (.list l)) = l) ∧
      (isSingle (.list l) = false → σ (.list l) = .list l))
    (hother : ∀ n, σ (.other n) = .other n) (harr : σ .arr0 = .arr0)
    (singles : List String) (hsn : singles.Nodup) (hss : ∀ k ∈ singles, k ∈ a.map Prod.fst)
    (hsm : ∀ e ∈ a, e.1 ∈ singles ↔ (isSingle e.2 || isSingleSet e.2) = true) :
    deserialise Y (mapVals (fun v => σ (conv Y v)) a ++
      (tail a singles).map (fun e => (e.1, σ e.2))) = .ok a := by
  simp only [deserialise, tail, List.map_cons, List.map_nil]
  rw [popList_block a h _ _ _ (σ (names (keysWhere isDict a))) (by decide) (by simp [List.lookup])]
  simp only [hσn, drop, List.filter]
  simp only [ne_eq, String.reduceEq, not_false_eq_true, decide_true, not_true_eq_false, decide_false]
  rw [forKeys_block a h _ (fun v => match v with
      | .str s => match readText Y s with
        | .ok d => .dict d
        | .error _ => v
      | v => v) _ _ (keysWhere_nodup _ _ h.1) (keysWhere_sub _ _) isDict
      (fun e he => mem_keysWhere _ a h.1 he) _ (by simp [reserved]) (by simp)
      (fun e he hp => by
        have hsv := hs e he
        cases hv : e.2 <;> rw [hv] at hp hsv <;> simp [isDict] at hp
        simp only [conv, hstr, readText_ok Y _ hsv])]
  simp only
  rw [popList_block a h _ _ _ (σ (names (keysWhere isBool a))) (by decide) (by simp [List.lookup])]
  simp only [hσn, drop, List.filter]
  simp only [ne_eq, String.reduceEq, not_false_eq_true, decide_true, not_true_eq_false, decide_false]
  rw [forKeys_block a h _ toBool _ _ (keysWhere_nodup _ _ h.1) (keysWhere_sub _ _) isBool
      (fun e he => mem_keysWhere _ a h.1 he) _ (by simp [reserved]) (by simp)
      (fun e he hp => rfl)]
  simp only
  rw [popList_block a h _ _ _ (σ (names (keysWhere isNone a))) (by decide) (by simp [List.lookup])]
  simp only [hσn, drop, List.filter]
  simp only [ne_eq, String.reduceEq, not_false_eq_true, decide_true, not_true_eq_false, decide_false]
  rw [foldl_put_eq .none _ (keysWhere_nodup _ _ h.1) _ (by
        rw [List.map_append, mapVals_keys, List.nodup_append]
        refine ⟨h.1, by simp, ?_⟩
        intro x hx y hy hxy
        subst hxy
        simp only [List.map_cons, List.map_nil, List.mem_cons, List.not_mem_nil, or_false] at hy
        refine not_reserved h ?_ hx
        rcases hy with h | h <;> simp [reserved, h])
      (fun k hk => by rw [List.map_append, mapVals_keys]; exact List.mem_append_left _ (keysWhere_sub _ _ k hk)),
    atKeys_block a _ isNone (fun e he => mem_keysWhere _ a h.1 he) _ _ _ (by
      intro e he hk
      refine not_reserved h ?_ (keysWhere_sub _ _ _ hk)
      simp only [List.mem_cons, List.not_mem_nil, or_false] at he
      rcases he with h | h <;> simp [reserved, h])]
  rw [popList_block a h _ _ _ (σ (names singles)) (by decide) (by simp [List.lookup])]
  simp only [hσn, drop, List.filter]
  simp only [ne_eq, String.reduceEq, not_false_eq_true, decide_true, not_true_eq_false, decide_false]
  rw [forKeys_block a h _ (fun v => .list (listify v)) _ _ hsn hss (fun v => isSingle v || isSingleSet v)
      hsm _ (by simp [reserved]) (by simp) (fun e he hp => rfl)]
  simp only
  rw [popList_block a h _ _ _ (σ (names (keysWhere isSet a))) (by decide) (by simp [List.lookup])]
  simp only [hσn, drop, List.filter]
  simp only [ne_eq, not_true_eq_false, decide_false]
  rw [forKeys_block a h _ (fun v => match toSet v with | .ok w => w | .error _ => v) _ _
      (keysWhere_nodup _ _ h.1) (keysWhere_sub _ _) isSet
      (fun e he => mem_keysWhere _ a h.1 he) _ (by simp) (by simp)
      (fun e he hp => by
        have hsv := hs e he
        cases hv : e.2 <;> rw [hv] at hp hsv <;> simp [isSet] at hp
        rename_i l
        have := hset l hsv
        cases h1 : isSingleSet (.set l)
        · simp [h1, isSingle, isNone, isBool, isDict, conv, this.2 h1]
        · have h2 := this.1 h1
          simp [h1, isSingle, isNone, isBool, isDict, conv]
          simp only [AVal.list.injEq] at h2
          simp [h2, toSet])]
  simp only [List.append_nil, Except.ok.injEq]
  conv => rhs; rw [← mapVals_id a]
  apply mapVals_congr
  intro e he
  have hsv := hs e he
  have hl := hlist e he
  cases hv : e.2 with
  | dict d => rw [hv] at hsv; simp [isDict, isSet, isSingle, isSingleSet, isNone, isBool, conv, hstr, readText_ok Y d hsv]
  | bool b => cases b <;> simp [isDict, isSet, isSingle, isSingleSet, isNone, isBool, conv, hint, toBool]
  | none => simp [isDict, isSet, isSingle, isSingleSet, isNone, isBool, conv]
  | str s => simp [isDict, isSet, isSingle, isSingleSet, isNone, isBool, conv, hstr]
  | int s => simp [isDict, isSet, isSingle, isSingleSet, isNone, isBool, conv, hint]
  | other s => simp [isDict, isSet, isSingle, isSingleSet, isNone, isBool, conv, hother]
  | arr0 => simp [isDict, isSet, isSingle, isSingleSet, isNone, isBool, conv, harr]
  | list l =>
    have := hl l hv
    cases h1 : isSingle (.list l)
    · simp [isDict, isSet, isSingleSet, isNone, isBool, conv, h1, this.2 h1]
    · simp [isDict, isSet, isSingleSet, isNone, isBool, conv, h1, this.1 h1]
  | set l =>
    rw [hv] at hsv
    have := hset l hsv
    cases h1 : isSingleSet (.set l)
    · simp [h1, isSet, isSingle, isNone, isBool, isDict, conv, this.2 h1]
    · have h2 := this.1 h1
      simp only [AVal.list.injEq] at h2
      simp [h1, isSet, isSingle, isNone, isBool, isDict, conv, h2, toSet]

end Serialise
end Calliope
