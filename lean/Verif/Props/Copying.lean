import Verif.Proofs.CopyingMade

/-!
# C127: a copy of a dictionary is a copy
-/

namespace Calliope
namespace Copying

variable {S : Type}

/-- `AttrDict(d)` holds the data of `d`, whatever is nested in it; nothing loses its data meanwhile, though lists of `d` are
changed; and all dictionaries in it are `AttrDict` objects if no list holds a list. -/
theorem C127_attrdict (fuel : Nat) (h : Heap S) (r : Addr) (F : Fields S) (hr : Holds h (.ref r) (.dict F))
    (hd : (Tree.dict F).depth ≤ fuel) :
    ∃ n h', attrDict fuel h r = some (n, h') ∧ Holds h' (.ref n) (.dict F) ∧ (∀ v t, Holds h v t → Holds h' v t) ∧
      (F.Simple → Made h' (.ref n) (.dict F)) := by
  obtain ⟨n, h', e1, e2, e3, _⟩ := attrDict_ok fuel h r F hr hd
  exact ⟨n, h', e1, e3, e2, (attrDict_makes fuel h r F hr hd n h' e1).2⟩

mutual
theorem made_same {b : Nat} {h h' : Heap S} (hc : Closed b h)
    (x : ∀ (a : Nat) (o : Obj S), b ≤ a → h[a]? = some o → h'[a]? = some o) :
    ∀ (t : Tree S) {v : Value S}, Above b v → Made h v t → Made h' v t
  | .leaf s, v, _, a => by cases a; exact .leaf s
  | .dict f, v, k, a => by
      cases a with
      | @dict r es _ e m =>
        refine .dict (x _ _ (k r rfl) e) (madeFields_same hc x f (fun p hp q hq => ?_) m)
        exact hc r _ (k r rfl) e q ⟨p.1, by rw [← hq]; exact hp⟩
  | .list i, v, k, a => by
      cases a with
      | @list r xs _ e m =>
        refine .list (x _ _ (k r rfl) e) (madeItems_same hc x i (fun p hp q hq => ?_) m)
        exact hc r _ (k r rfl) e q (by show Value.ref q ∈ xs; rw [← hq]; exact hp)
theorem madeFields_same {b : Nat} {h h' : Heap S} (hc : Closed b h)
    (x : ∀ (a : Nat) (o : Obj S), b ≤ a → h[a]? = some o → h'[a]? = some o) :
    ∀ (f : Fields S) {es : List (String × Value S)}, (∀ e ∈ es, Above b e.2) → MadeFields h es f → MadeFields h' es f
  | .nil, es, _, a => by cases a; exact .nil
  | .cons k t r, es, q, a => by
      cases a with
      | cons m n =>
        exact .cons (made_same hc x t (q _ List.mem_cons_self) m)
          (madeFields_same hc x r (fun e he => q e (List.mem_cons_of_mem _ he)) n)
theorem madeItems_same {b : Nat} {h h' : Heap S} (hc : Closed b h)
    (x : ∀ (a : Nat) (o : Obj S), b ≤ a → h[a]? = some o → h'[a]? = some o) :
    ∀ (i : Items S) {xs : List (Value S)}, (∀ v ∈ xs, Above b v) → MadeItems h xs i → MadeItems h' xs i
  | .nil, xs, _, a => by cases a; exact .nil
  | .cons t r, xs, q, a => by
      cases a with
      | leaf n => exact .leaf (madeItems_same hc x r (fun e he => q e (List.mem_cons_of_mem _ he)) n)
      | dict m n =>
        exact .dict (made_same hc x _ (q _ List.mem_cons_self) m)
          (madeItems_same hc x r (fun e he => q e (List.mem_cons_of_mem _ he)) n)
end

/-- A copy is made of `AttrDict` objects too. -/
theorem copy_made (fuel : Nat) (h : Heap S) (r : Addr) (F : Fields S) (hm : Made h (.ref r) (.dict F))
    (hd : F.depth + 1 ≤ fuel) {n : Addr} {h' : Heap S} (e : copy fuel h r = some (n, h')) :
    Made h' (.ref n) (.dict F) := by
  obtain ⟨d, h1, e1, _, e3, _⟩ := asDict_ok fuel h r F hm hd
  cases e3 with
  | @dict _ attr es _ e2 a =>
    have x := Ext.append h1 (.dict false es)
    have h2 : Holds (h1 ++ [.dict false es]) (.ref h1.length) (.dict F) :=
      .dict (attr := false) (es := es) (by simp) (fields_mono x F a)
    simp only [copy, e1, shallow, e2] at e
    exact (attrDict_makes fuel _ _ F h2 hd n h' e).2 (made_simple _ hm)

/-- `d.copy()` of an `AttrDict` in which no list holds a list: an `AttrDict` with the same data; and whoever has the copy can
do whatever they want with it, the original keeps its data. -/
theorem C127_copy_partial (fuel : Nat) (h : Heap S) (r : Addr) (F : Fields S) (hm : Made h (.ref r) (.dict F))
    (hd : (Tree.dict F).depth ≤ fuel) :
    ∃ n h', copy fuel h r = some (n, h') ∧ Made h' (.ref n) (.dict F) ∧
      ∀ h2 K, Client n h' h2 K → Made h2 (.ref r) (.dict F) := by
  obtain ⟨n, h', e1, e2, e3, e4, e5⟩ := copy_ok fuel h r F hm hd
  refine ⟨n, h', e1, copy_made fuel h r F hm hd e1, ?_⟩
  intro h2 K c
  have hlen : h.length ≤ h'.length := by
    cases e3 with
    | dict e _ => exact Nat.le_trans e5 (Nat.le_of_lt (List.getElem?_eq_some_iff.1 e).1)
  exact made_mono (e2.trans (client_new e4 e5 hlen c).1).ext _ hm

/-- Someone who has an old object only knows old objects and what they made themselves. -/
theorem client_old {b : Nat} {n : Addr} {h0 h : Heap S} {K : List Addr} (hn : n < b) (hb : b ≤ h0.length)
    (hold : ∀ (a : Nat) (o : Obj S) (d : Addr), a < b → h0[a]? = some o → o.Refers d → d < b) (c : Client n h0 h K) :
    (∀ (a : Nat), b ≤ a → a < h0.length → h[a]? = h0[a]?) ∧ h0.length ≤ h.length ∧
      (∀ (a : Nat) (o : Obj S) (d : Addr), a < b ∨ h0.length ≤ a → h[a]? = some o → o.Refers d →
        d < b ∨ h0.length ≤ d) ∧ ∀ a ∈ K, a < b ∨ h0.length ≤ a := by
  induction c with
  | start =>
    refine ⟨fun _ _ _ => rfl, Nat.le_refl _, ?_, by simpa using Or.inl hn⟩
    rintro a o d (ha | ha) e hd
    · exact .inl (hold a o d ha e hd)
    · have := (List.getElem?_eq_some_iff.1 e).1; omega
  | look _ ha e hd ih =>
    refine ⟨ih.1, ih.2.1, ih.2.2.1, ?_⟩
    intro x hx
    rcases List.mem_cons.1 hx with rfl | hx
    · exact ih.2.2.1 _ _ _ (ih.2.2.2 _ ha) e hd
    · exact ih.2.2.2 x hx
  | @make h K o _ ho ih =>
    refine ⟨?_, ?_, ?_, ?_⟩
    · intro a h1 h2
      rw [List.getElem?_append_left (Nat.lt_of_lt_of_le h2 ih.2.1)]
      exact ih.1 a h1 h2
    · simp only [List.length_append]; have := ih.2.1; omega
    · intro a o' d ha e hd
      by_cases hlt : a < h.length
      · rw [List.getElem?_append_left hlt] at e
        exact ih.2.2.1 a o' d ha e hd
      · rw [List.getElem?_append_right (Nat.le_of_not_lt hlt)] at e
        cases hk : a - h.length with
        | zero => rw [hk] at e; cases e; exact ih.2.2.2 d (ho d hd)
        | succ k => rw [hk] at e; cases e
    · intro x hx
      rcases List.mem_cons.1 hx with rfl | hx
      · exact .inr ih.2.1
      · exact ih.2.2.2 x hx
  | @change h K a' o _ ha ho ih =>
    refine ⟨?_, by rw [List.length_set]; exact ih.2.1, ?_, ih.2.2.2⟩
    · intro a h1 h2
      have hne : a' ≠ a := by
        rintro rfl
        rcases ih.2.2.2 _ ha with hk | hk
        · exact absurd hk (Nat.not_lt.2 h1)
        · exact absurd h2 (Nat.not_lt.2 hk)
      rw [List.getElem?_set_ne hne]
      exact ih.1 a h1 h2
    · intro a o' d hx e hd
      rw [List.getElem?_set] at e
      split at e
      · split at e
        · cases e; exact ih.2.2.2 d (ho d hd)
        · cases e
      · exact ih.2.2.1 a o' d hx e hd

/-- The other way round: whoever has the original can do whatever they want with it, the copy keeps its data.  Before, all
references are to objects that exist. -/
theorem C127_original_partial (fuel : Nat) (h : Heap S) (r : Addr) (F : Fields S) (hm : Made h (.ref r) (.dict F))
    (hd : (Tree.dict F).depth ≤ fuel)
    (hold : ∀ (a : Nat) (o : Obj S) (d : Addr), h[a]? = some o → o.Refers d → d < h.length) :
    ∃ n h', copy fuel h r = some (n, h') ∧ ∀ h2 K, Client r h' h2 K → Made h2 (.ref n) (.dict F) := by
  obtain ⟨n, h', e1, e2, e3, e4, e5⟩ := copy_ok fuel h r F hm hd
  have hmade := copy_made fuel h r F hm hd e1
  refine ⟨n, h', e1, ?_⟩
  intro h2 K c
  have hlen : h.length ≤ h'.length := by
    cases e3 with
    | dict e _ => exact Nat.le_trans e5 (Nat.le_of_lt (List.getElem?_eq_some_iff.1 e).1)
  have hr : r < h.length := by
    cases hm with
    | dict e _ => exact (List.getElem?_eq_some_iff.1 e).1
  have k := client_old (b := h.length) hr hlen (fun a o d ha e hd => hold a o d (by rw [← e2 a ha]; exact e) hd) c
  refine made_same e4 (fun a o ha e => ?_) _ (fun q hq => by cases hq; exact e5) hmade
  rw [k.1 a ha (List.getElem?_eq_some_iff.1 e).1]
  exact e

/-- `to_yaml(data)` works on a dictionary that holds the data, and whatever it does with it leaves `data` as it was, for all
data in which no list holds a list, whether plain dictionaries or `AttrDict` objects. -/
theorem C127_to_yaml_partial (fuel : Nat) (h : Heap S) (r : Addr) (F : Fields S) (hr : Holds h (.ref r) (.dict F))
    (hs : F.Simple) (hd : (Tree.dict F).depth ≤ fuel) :
    ∃ n h', prepared fuel h r = some (n, h') ∧ Made h' (.ref n) (.dict F) ∧
      ∀ h2 K, Client n h' h2 K → Holds h2 (.ref r) (.dict F) := by
  obtain ⟨m, h1, e1, e2, e3, _⟩ := attrDict_ok fuel h r F hr hd
  have hm := (attrDict_makes fuel h r F hr hd m h1 e1).2 hs
  obtain ⟨n, h', g1, g2, g3, g4, g5⟩ := copy_ok fuel h1 m F hm hd
  refine ⟨n, h', by simp only [prepared, e1, g1], copy_made fuel h1 m F hm hd g1, ?_⟩
  intro h2 K c
  have hlen : h1.length ≤ h'.length := by
    cases g3 with
    | dict e _ => exact Nat.le_trans g5 (Nat.le_of_lt (List.getElem?_eq_some_iff.1 e).1)
  exact holds_mono (g2.trans (client_new g4 g5 hlen c).1).ext _ (e2 _ _ hr)

/-! ### Where it fails, and examples -/

/-- `{"a": [[0]]}` -/
def nested : Heap Nat := [.dict true [("a", .ref 1)], .list [.ref 2], .list [.leaf 0]]

/-- Its data. -/
def nestedData : Fields Nat := .cons "a" (.list (.cons (.list (.cons (.leaf 0) .nil)) .nil)) .nil

theorem nested_holds : Holds nested (.ref 0) (.dict nestedData) :=
  .dict (attr := true) (es := [("a", .ref 1)]) rfl
    (.cons (.list (xs := [.ref 2]) rfl (.cons (.list (xs := [.leaf 0]) rfl (.cons (.leaf 0) .nil)) .nil)) .nil)

/-- C127 fails for lists of lists: the copy has the inner list of the original, and who changes it there changes the
original. -/
theorem C127_shared_inner_list : ∃ n h' h2 K, copy 1 nested 0 = some (n, h') ∧ Client n h' h2 K ∧
    ¬ Holds h2 (.ref 0) (.dict nestedData) := by
  refine ⟨6, nested ++ [.list [.ref 2], .dict false [("a", .ref 3)], .dict false [("a", .ref 3)],
    .dict true [("a", .ref 3)]], _, _, rfl,
    .change (a := 2) (.list []) (.look (a := 3) (d := 2) (o := .list [.ref 2])
      (.look (a := 6) (d := 3) (o := .dict true [("a", .ref 3)]) .start (by simp) rfl ⟨"a", by simp⟩) (by simp) rfl
      (by simp [Obj.Refers])) (by simp) (by intro d hd; simp [Obj.Refers] at hd), ?_⟩
  intro hh
  cases hh with
  | dict e f =>
    cases e
    cases f with
    | cons a _ =>
      cases a with
      | list e2 i =>
        cases e2
        cases i with
        | cons b _ =>
          cases b with
          | list e3 j =>
            cases e3
            cases j

/-- `{"a": [0]}` as a plain dictionary. -/
def plain : Heap Nat := [.dict false [("a", .ref 1)], .list [.leaf 0]]

/-- Its data. -/
def plainData : Fields Nat := .cons "a" (.list (.cons (.leaf 0) .nil)) .nil

theorem plain_holds : Holds plain (.ref 0) (.dict plainData) :=
  .dict (attr := false) (es := [("a", .ref 1)]) rfl
    (.cons (.list (xs := [.leaf 0]) rfl (.cons (.leaf 0) .nil)) .nil)

/-- C127 fails for `AttrDict(d)`: it has the lists of `d`. -/
theorem C127_attrdict_shares : ∃ n h' h2 K, attrDict 1 plain 0 = some (n, h') ∧ Client n h' h2 K ∧
    ¬ Holds h2 (.ref 0) (.dict plainData) := by
  refine ⟨2, plain ++ [.dict true [("a", .ref 1)]], _, _, rfl,
    .change (a := 1) (.list []) (.look (a := 2) (d := 1) (o := .dict true [("a", .ref 1)]) .start (by simp) rfl
      ⟨"a", by simp⟩) (by simp) (by intro d hd; simp [Obj.Refers] at hd), ?_⟩
  intro hh
  cases hh with
  | dict e f =>
    cases e
    cases f with
    | cons a _ =>
      cases a with
      | list e2 i =>
        cases e2
        cases i

/-- `{"a": [{"b": 1}, 2], "c": {}}` -/
def demo : Heap Nat := [.dict true [("a", .ref 1), ("c", .ref 3)], .list [.ref 2, .leaf 2], .dict true [("b", .leaf 1)],
  .dict true []]

/-- Its data. -/
def demoData : Fields Nat := .cons "a" (.list (.cons (.dict (.cons "b" (.leaf 1) .nil)) (.cons (.leaf 2) .nil)))
  (.cons "c" (.dict .nil) .nil)

/-- `C127_copy_partial`, `C127_original_partial`, `C127_attrdict`, `C127_to_yaml_partial`: their hypotheses. -/
example : Made demo (.ref 0) (.dict demoData) ∧ (Tree.dict demoData).depth ≤ 2 ∧ demoData.Simple ∧
    ∀ (a : Nat) (o : Obj Nat) (d : Addr), demo[a]? = some o → o.Refers d → d < demo.length := by
  refine ⟨?_, by decide, ?_, ?_⟩
  · exact .dict (es := [("a", .ref 1), ("c", .ref 3)]) rfl
      (.cons (.list (xs := [.ref 2, .leaf 2]) rfl
        (.dict (.dict (es := [("b", .leaf 1)]) rfl (.cons (.leaf 1) .nil)) (.leaf .nil)))
        (.cons (.dict (es := []) rfl .nil) .nil))
  · simp [demoData, Fields.Simple, Tree.Simple, Items.Simple]
  · intro a o d e hd
    match a, e with
    | 0, e => cases e; obtain ⟨k, hk⟩ := hd; simp at hk; rcases hk with h | h <;> simp [h.2, demo]
    | 1, e => cases e; simp [Obj.Refers] at hd; simp [hd, demo]
    | 2, e => cases e; simp [Obj.Refers] at hd
    | 3, e => cases e; simp [Obj.Refers] at hd

/-- The copy: the list and the dictionary in it are new objects. -/
example : (copy 2 demo 0).map Prod.fst = some 11 := rfl

/-- A plain dictionary with a plain dictionary in a list: `AttrDict` puts an `AttrDict` into the list of the source. -/
example : (attrDict 2 ([.dict false [("a", .ref 1)], .list [.ref 2], .dict false [("b", .leaf 1)]] : Heap Nat) 0).map
    (fun x => x.2[1]?) = some (some (.list [.ref 3])) := rfl

end Copying
end Calliope
