import Verif.Proofs.Copying

/-!
# What `AttrDict` makes has only `AttrDict` objects
-/

namespace Calliope
namespace Copying

variable {S : Type}

mutual
theorem made_holds {h : Heap S} : ∀ (t : Tree S) {v : Value S}, Made h v t → Holds h v t
  | .leaf s, v, a => by cases a; exact .leaf s
  | .dict f, v, a => by
      cases a with
      | dict e b => exact .dict e (madeFields_holds f b)
  | .list i, v, a => by
      cases a with
      | list e b => exact .list e (madeItems_holds i b)
theorem madeFields_holds {h : Heap S} : ∀ (f : Fields S) {es : List (String × Value S)}, MadeFields h es f →
    HoldsFields h es f
  | .nil, es, a => by cases a; exact .nil
  | .cons k t r, es, a => by
      cases a with
      | cons b c => exact .cons (made_holds t b) (madeFields_holds r c)
theorem madeItems_holds {h : Heap S} : ∀ (i : Items S) {xs : List (Value S)}, MadeItems h xs i → HoldsItems h xs i
  | .nil, xs, a => by cases a; exact .nil
  | .cons t r, xs, a => by
      cases a with
      | leaf c => exact .cons (.leaf _) (madeItems_holds r c)
      | dict b c => exact .cons (made_holds _ b) (madeItems_holds r c)
end

mutual
theorem made_simple {h : Heap S} : ∀ (t : Tree S) {v : Value S}, Made h v t → t.Simple
  | .leaf s, v, a => trivial
  | .dict f, v, a => by
      cases a with
      | dict e b => exact madeFields_simple f b
  | .list i, v, a => by
      cases a with
      | list e b => exact madeItems_simple i b
theorem madeFields_simple {h : Heap S} : ∀ (f : Fields S) {es : List (String × Value S)}, MadeFields h es f → f.Simple
  | .nil, es, a => trivial
  | .cons k t r, es, a => by
      cases a with
      | cons b c => exact ⟨made_simple t b, madeFields_simple r c⟩
theorem madeItems_simple {h : Heap S} : ∀ (i : Items S) {xs : List (Value S)}, MadeItems h xs i → i.Simple
  | .nil, xs, a => trivial
  | .cons t r, xs, a => by
      cases a with
      | leaf c => exact ⟨fun i e => (by cases e), trivial, madeItems_simple r c⟩
      | dict b c => exact ⟨fun i e => (by cases e), made_simple _ b, madeItems_simple r c⟩
end

/-- An item of a list that is no list, and if a dictionary is an `AttrDict` in all depth. -/
def MadeItem (h : Heap S) (v : Value S) (t : Tree S) : Prop := Made h v t ∧ ∀ i, t ≠ .list i

theorem madeItems_cons {h : Heap S} {v : Value S} {t : Tree S} {xs : List (Value S)} {I : Items S}
    (a : MadeItem h v t) (b : MadeItems h xs I) : MadeItems h (v :: xs) (.cons t I) := by
  obtain ⟨m, n⟩ := a
  cases m with
  | leaf s => exact .leaf b
  | dict e f => exact .dict (.dict e f) b
  | list e f => exact absurd rfl (n _)

theorem madeItems_uncons {h : Heap S} {v : Value S} {t : Tree S} {xs : List (Value S)} {I : Items S}
    (a : MadeItems h (v :: xs) (.cons t I)) : MadeItem h v t ∧ MadeItems h xs I := by
  cases a with
  | leaf c => exact ⟨⟨.leaf _, fun i e => by cases e⟩, c⟩
  | dict b c => exact ⟨⟨b, fun i e => by cases e⟩, c⟩

/-- What is made of `AttrDict` objects stays so, and so do the items of lists. -/
structure Grows (h h' : Heap S) : Prop where
  made : ∀ v t, Made h v t → Made h' v t
  item : ∀ (l : Nat) (xs : List (Value S)) (j : Nat) (v : Value S) (t : Tree S), h[l]? = some (.list xs) →
    xs[j]? = some v → MadeItem h v t →
    ∃ ys v', h'[l]? = some (.list ys) ∧ ys[j]? = some v' ∧ MadeItem h' v' t

theorem Grows.refl (h : Heap S) : Grows h h := ⟨fun _ _ a => a, fun _ xs _ v _ a b c => ⟨xs, v, a, b, c⟩⟩

theorem Grows.trans {h h' h'' : Heap S} (a : Grows h h') (b : Grows h' h'') : Grows h h'' := by
  refine ⟨fun v t m => b.made v t (a.made v t m), ?_⟩
  intro l xs j v t h1 h2 h3
  obtain ⟨ys, v', g1, g2, g3⟩ := a.item l xs j v t h1 h2 h3
  exact b.item l ys j v' t g1 g2 g3

theorem Ext.grows {h h' : Heap S} (x : Ext h h') : Grows h h' :=
  ⟨fun _ t a => made_mono x t a, fun l xs _ v t a b c => ⟨xs, v, x l _ a, b, made_mono x t c.1, c.2⟩⟩

theorem Grows.fields {h h' : Heap S} (k : Grows h h') : ∀ {es : List (String × Value S)} (f : Fields S),
    MadeFields h es f → MadeFields h' es f
  | es, .nil, a => by cases a; exact .nil
  | es, .cons n t r, a => by
      cases a with
      | cons b c => exact .cons (k.made _ _ b) (k.fields r c)

mutual
theorem made_set {h : Heap S} {l : Addr} {xs : List (Value S)} {i : Nat} {v w : Value S}
    (hl : h[l]? = some (.list xs)) (hi : xs[i]? = some v) (hw : ∀ t, Made h v t → Made h w t) :
    ∀ (t : Tree S) {u : Value S}, Made h u t → Made (h.set l (.list (xs.set i w))) u t
  | .leaf s, u, a => by cases a; exact .leaf s
  | .dict f, u, a => by
      cases a with
      | @dict r _ _ e b =>
        have hne : r ≠ l := by rintro rfl; rw [hl] at e; cases e
        exact .dict (by rw [get_set hl, if_neg hne]; exact e) (madeFields_set hl hi hw f b)
  | .list I, u, a => by
      cases a with
      | @list r ys _ e b =>
        by_cases hr : r = l
        · subst hr
          rw [hl] at e
          cases e
          exact .list (by rw [get_set hl, if_pos rfl]) (madeItems_put hl hi hw I b hi)
        · exact .list (by rw [get_set hl, if_neg hr]; exact e) (madeItems_set hl hi hw I b)
theorem madeFields_set {h : Heap S} {l : Addr} {xs : List (Value S)} {i : Nat} {v w : Value S}
    (hl : h[l]? = some (.list xs)) (hi : xs[i]? = some v) (hw : ∀ t, Made h v t → Made h w t) :
    ∀ (f : Fields S) {es : List (String × Value S)}, MadeFields h es f →
      MadeFields (h.set l (.list (xs.set i w))) es f
  | .nil, es, a => by cases a; exact .nil
  | .cons k t r, es, a => by
      cases a with
      | cons b c => exact .cons (made_set hl hi hw t b) (madeFields_set hl hi hw r c)
theorem madeItems_set {h : Heap S} {l : Addr} {xs : List (Value S)} {i : Nat} {v w : Value S}
    (hl : h[l]? = some (.list xs)) (hi : xs[i]? = some v) (hw : ∀ t, Made h v t → Made h w t) :
    ∀ (I : Items S) {ys : List (Value S)}, MadeItems h ys I → MadeItems (h.set l (.list (xs.set i w))) ys I
  | .nil, ys, a => by cases a; exact .nil
  | .cons t r, ys, a => by
      cases ys with
      | nil => cases a
      | cons y ys =>
        obtain ⟨b, c⟩ := madeItems_uncons a
        exact madeItems_cons ⟨made_set hl hi hw t b.1, b.2⟩ (madeItems_set hl hi hw r c)
theorem madeItems_put {h : Heap S} {l : Addr} {xs : List (Value S)} {i : Nat} {v w : Value S}
    (hl : h[l]? = some (.list xs)) (hi : xs[i]? = some v) (hw : ∀ t, Made h v t → Made h w t) :
    ∀ (I : Items S) {ys : List (Value S)} {j : Nat}, MadeItems h ys I → ys[j]? = some v →
      MadeItems (h.set l (.list (xs.set i w))) (ys.set j w) I
  | .nil, ys, j, a, e => by cases a; cases e
  | .cons t r, ys, j, a, e => by
      cases ys with
      | nil => cases a
      | cons y ys =>
        obtain ⟨b, c⟩ := madeItems_uncons a
        cases j with
        | zero =>
          simp only [List.getElem?_cons_zero, Option.some.injEq] at e
          subst e
          exact madeItems_cons ⟨made_set hl hi hw t (hw t b.1), b.2⟩ (madeItems_set hl hi hw r c)
        | succ j =>
          exact madeItems_cons ⟨made_set hl hi hw t b.1, b.2⟩ (madeItems_put hl hi hw r c (by simpa using e))
end

theorem grows_set {h : Heap S} {l : Addr} {xs : List (Value S)} {i : Nat} {v w : Value S}
    (hl : h[l]? = some (.list xs)) (hi : xs[i]? = some v) (hw : ∀ t, Made h v t → Made h w t) :
    Grows h (h.set l (.list (xs.set i w))) := by
  refine ⟨fun u t a => made_set hl hi hw t a, ?_⟩
  intro k zs j u t hk hj hm
  by_cases e : k = l
  · subst e
    rw [hl] at hk
    cases hk
    refine ⟨xs.set i w, if j = i then w else u, by rw [get_set hl, if_pos rfl], ?_, ?_, hm.2⟩
    · have hlt := (List.getElem?_eq_some_iff.1 hj).1
      rw [List.getElem?_set]
      by_cases e2 : i = j
      · subst e2; simp [hlt]
      · simp [e2, Ne.symm e2, hj]
    · by_cases e2 : j = i
      · subst e2
        rw [hi] at hj
        cases hj
        rw [if_pos rfl]
        exact made_set hl hi hw t (hw t hm.1)
      · rw [if_neg e2]
        exact made_set hl hi hw t hm.1
  · exact ⟨zs, u, by rw [get_set hl, if_neg e]; exact hk, hj, made_set hl hi hw t hm.1, hm.2⟩

/-- `AttrDict` makes `AttrDict` objects, in all depth if no list holds a list. -/
def Makes (f : Heap S → Addr → Option (Addr × Heap S)) (fuel : Nat) : Prop :=
  ∀ (h : Heap S) (d : Addr) (F : Fields S), Holds h (.ref d) (.dict F) → F.depth + 1 ≤ fuel →
    ∀ w h', f h d = some (w, h') → Grows h h' ∧ (F.Simple → Made h' (.ref w) (.dict F))

theorem nth_simple : ∀ (I : Items S) (i : Nat) {t : Tree S}, I.Simple → nth I i = some t →
    t.Simple ∧ ∀ k, t ≠ .list k
  | .nil, i, t, _, e => by cases e
  | .cons a r, 0, t, s, e => by
      simp only [nth, Option.some.injEq] at e
      subst e
      exact ⟨s.2.1, s.1⟩
  | .cons a r, i + 1, t, s, e => nth_simple r i s.2.2 e

theorem madeItems_all {h : Heap S} : ∀ (I : Items S) (xs : List (Value S)), HoldsItems h xs I →
    (∀ j v t, xs[j]? = some v → nth I j = some t → MadeItem h v t) → MadeItems h xs I
  | .nil, xs, a, _ => by cases a; exact .nil
  | .cons t r, xs, a, m => by
      cases a with
      | cons b c =>
        exact madeItems_cons (m 0 _ t rfl rfl)
          (madeItems_all r _ c (fun j v u h1 h2 => m (j + 1) v u (by simpa using h1) h2))

theorem convert_makes {f : Heap S → Addr → Option (Addr × Heap S)} {fuel : Nat} (hf : Builds f fuel)
    (hm : Makes f fuel) {l : Addr} {I : Items S} (hd : I.depth ≤ fuel) : ∀ (n i : Nat) (h : Heap S)
      (xs : List (Value S)) (h' : Heap S), h[l]? = some (.list xs) → HoldsItems h xs I → i + n = xs.length →
      convert f l n i h = some h' →
      (I.Simple → ∀ j, j < i → ∀ v t, xs[j]? = some v → nth I j = some t → MadeItem h v t) →
      Grows h h' ∧ (I.Simple → Made h' (.ref l) (.list I)) := by
  intro n
  induction n with
  | zero =>
    intro i h xs h' hl hx hn e hdone
    simp only [convert, Option.some.injEq] at e
    subst e
    refine ⟨Grows.refl h, fun s => .list hl (madeItems_all I xs hx ?_)⟩
    intro j v t hj ht
    have := (List.getElem?_eq_some_iff.1 hj).1
    exact hdone s j (by omega) v t hj ht
  | succ n ih =>
    intro i h xs h' hl hx hn e hdone
    have hlt : i < xs.length := by omega
    have hv : xs[i]? = some xs[i] := List.getElem?_eq_getElem hlt
    have hat : itemAt h l i = some xs[i] := by simp only [itemAt, hl, hv]
    obtain ⟨t, ht, hold⟩ := items_get I hx hv
    simp only [convert, hat] at e
    cases hdv : isDict h xs[i] with
    | none =>
      rw [hdv] at e
      refine ih (i + 1) h xs h' hl hx (by omega) e ?_
      intro s j hj v u h1 h2
      by_cases hji : j = i
      · subst hji
        rw [hv] at h1
        cases h1
        rw [ht] at h2
        cases h2
        have hs := nth_simple I j s ht
        generalize xs[j] = u at hold hdv
        cases hold with
        | leaf q => exact ⟨.leaf q, fun k hk => by cases hk⟩
        | @dict r a es F e1 b =>
          simp only [isDict, e1] at hdv
          cases hdv
        | list e1 b => exact absurd rfl (hs.2 _)
      · exact hdone s j (by omega) v u h1 h2
    | some d =>
      rw [hdv] at e
      obtain ⟨F, rfl⟩ := isDict_holds hdv hold
      have hvd := isDict_some hdv
      rw [hvd] at hold
      have hdep : F.depth + 1 ≤ fuel := Nat.le_trans (by simpa [Tree.depth] using nth_depth I i ht) hd
      obtain ⟨w, h1, e1, e2, e3, e4, e5⟩ := hf h d F hold hdep
      obtain ⟨g1, g2⟩ := hm h d F hold hdep w h1 e1
      have hlist : Holds h1 (.ref l) (.list I) := e2 _ _ (.list hl hx)
      cases hlist with
      | @list _ ys _ hl1 hy =>
        obtain ⟨v', hv', hold'⟩ := items_nth I hy ht
        have hw : ∀ u, Holds h1 v' u → Holds h1 (.ref w) u := by
          intro u hu
          rw [holds_unique _ hu hold']
          exact e3
        have hw2 : ∀ u, Made h1 v' u → Made h1 (.ref w) u := by
          intro u hu
          have := holds_unique _ (made_holds _ hu) hold'
          subst this
          exact g2 (made_simple _ hu)
        have hset : setItem h1 l i (.ref w) = h1.set l (.list (ys.set i (.ref w))) := by simp only [setItem, hl1]
        have hg : Grows h1 (h1.set l (.list (ys.set i (.ref w)))) := grows_set hl1 hv' hw2
        have hlen := items_length I hx hy
        simp only [e1, hset] at e
        obtain ⟨k1, k2⟩ := ih (i + 1) (h1.set l (.list (ys.set i (.ref w)))) (ys.set i (.ref w)) h'
          (by rw [get_set hl1, if_pos rfl]) (items_put hl1 hv' hw I hy hv') (by simp only [List.length_set]; omega)
          e (by
            intro s j hj v u h4 h5
            by_cases hji : j = i
            · subst hji
              have hlt2 : j < ys.length := by omega
              rw [List.getElem?_set_self hlt2] at h4
              cases h4
              rw [ht] at h5
              cases h5
              exact ⟨hg.made _ _ (g2 (nth_simple I j s ht).1), fun k hk => by cases hk⟩
            · rw [List.getElem?_set_ne (Ne.symm hji)] at h4
              have hjl : j < xs.length := by omega
              have hxj : xs[j]? = some xs[j] := List.getElem?_eq_getElem hjl
              have hmj := hdone s j (by omega) xs[j] u hxj h5
              obtain ⟨zs, v2, a1, a2, a3⟩ := g1.item l xs j xs[j] u hl hxj hmj
              rw [hl1] at a1
              cases a1
              rw [h4] at a2
              cases a2
              exact ⟨hg.made _ _ a3.1, a3.2⟩)
        exact ⟨g1.trans (hg.trans k1), k2⟩

theorem initValue_makes {f : Heap S → Addr → Option (Addr × Heap S)} {fuel : Nat} (hf : Builds f fuel)
    (hm : Makes f fuel) {h : Heap S} {v : Value S} {t : Tree S} (hv : Holds h v t) (hd : t.depth ≤ fuel)
    {w : Value S} {h' : Heap S} (e : initValue f h v = some (w, h')) :
    Grows h h' ∧ (t.Simple → Made h' w t) := by
  cases hv with
  | leaf s =>
    simp only [initValue, Option.some.injEq, Prod.mk.injEq] at e
    obtain ⟨rfl, rfl⟩ := e
    exact ⟨Grows.refl h, fun _ => .leaf s⟩
  | @dict r attr es F e0 a =>
    have hdep : F.depth + 1 ≤ fuel := by simpa [Tree.depth] using hd
    obtain ⟨w1, h1, e1, _⟩ := hf h r F (.dict e0 a) hdep
    simp only [initValue, e0, e1, Option.some.injEq, Prod.mk.injEq] at e
    obtain ⟨rfl, rfl⟩ := e
    exact hm h r F (.dict e0 a) hdep w1 h1 e1
  | @list r xs I e0 a =>
    have hdep : I.depth ≤ fuel := by simpa [Tree.depth] using hd
    obtain ⟨h1, e1, _⟩ := convert_ok hf (l := r) hdep xs.length 0 h xs e0 a (by omega)
    simp only [initValue, e0, e1, Option.some.injEq, Prod.mk.injEq] at e
    obtain ⟨rfl, rfl⟩ := e
    exact convert_makes hf hm hdep xs.length 0 h xs h1 e0 a (by omega) e1 (fun _ j hj => by omega)

theorem initEntries_makes {f : Heap S → Addr → Option (Addr × Heap S)} {fuel : Nat} (hf : Builds f fuel)
    (hm : Makes f fuel) : ∀ (F : Fields S) (h : Heap S) (es : List (String × Value S)), HoldsFields h es F →
    F.depth ≤ fuel → ∀ es' h', initEntries f h es = some (es', h') →
    Grows h h' ∧ (F.Simple → MadeFields h' es' F)
  | .nil, h, es, a, _, es', h', e => by
      cases a
      simp only [initEntries, Option.some.injEq, Prod.mk.injEq] at e
      obtain ⟨rfl, rfl⟩ := e
      exact ⟨Grows.refl h, fun _ => .nil⟩
  | .cons k t r, h, es, a, hd, es', h', e => by
      simp only [Fields.depth] at hd
      cases a with
      | @cons _ v _ es _ x y =>
        have hd1 := Nat.le_trans (Nat.le_max_left _ _) hd
        have hd2 := Nat.le_trans (Nat.le_max_right _ _) hd
        obtain ⟨w, h1, e1, e2, _⟩ := initValue_ok hf x hd1
        obtain ⟨es2, h2, g1, _⟩ := initEntries_ok hf r h1 es (e2.fields r y) hd2
        simp only [initEntries, e1, g1, Option.some.injEq, Prod.mk.injEq] at e
        obtain ⟨rfl, rfl⟩ := e
        obtain ⟨k1, k2⟩ := initValue_makes hf hm x hd1 e1
        obtain ⟨l1, l2⟩ := initEntries_makes hf hm r h1 es (e2.fields r y) hd2 es2 h2 g1
        exact ⟨k1.trans l1, fun s => .cons (l1.made _ _ (k2 s.1)) (l2 s.2)⟩

theorem attrDict_makes : ∀ fuel : Nat, Makes (S := S) (attrDict fuel) fuel := by
  intro fuel
  induction fuel with
  | zero => intro h d F _ hd; omega
  | succ fuel ih =>
    intro h d F hF hd w h' e
    cases hF with
    | @dict _ attr es _ e0 a =>
      obtain ⟨es', h1, e1, _⟩ := initEntries_ok (attrDict_ok fuel) F h es a (by omega)
      obtain ⟨k1, k2⟩ := initEntries_makes (attrDict_ok fuel) ih F h es a (by omega) es' h1 e1
      simp only [attrDict, e0, e1, Option.some.injEq, Prod.mk.injEq] at e
      obtain ⟨rfl, rfl⟩ := e
      have x := Ext.append h1 (.dict true es')
      exact ⟨k1.trans x.grows, fun s => .dict (es := es') (by simp) (madeFields_mono x F (k2 s))⟩

end Copying
end Calliope
