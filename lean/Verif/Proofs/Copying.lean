import Verif.Spec.Copying

/-!
# Copies of dictionaries: what each step keeps
-/

namespace Calliope
namespace Copying

variable {S : Type}

/-! ### What a value holds -/

mutual
theorem holds_unique {h : Heap S} : ∀ (t : Tree S) {v : Value S} {t' : Tree S}, Holds h v t → Holds h v t' → t = t'
  | .leaf s, v, t', h1, h2 => by cases h1; cases h2; rfl
  | .dict f, v, t', h1, h2 => by
      cases h1 with
      | dict e1 f1 =>
        cases h2 with
        | dict e2 f2 =>
          rw [e1] at e2
          cases e2
          rw [fields_unique f f1 f2]
        | list e2 _ => rw [e1] at e2; cases e2
  | .list i, v, t', h1, h2 => by
      cases h1 with
      | list e1 i1 =>
        cases h2 with
        | dict e2 f2 => rw [e1] at e2; cases e2
        | list e2 i2 =>
          rw [e1] at e2
          cases e2
          rw [items_unique i i1 i2]
theorem fields_unique {h : Heap S} : ∀ (f : Fields S) {es : List (String × Value S)} {f' : Fields S},
    HoldsFields h es f → HoldsFields h es f' → f = f'
  | .nil, es, f', h1, h2 => by cases h1; cases h2; rfl
  | .cons k t r, es, f', h1, h2 => by
      cases h1 with
      | cons a b =>
        cases h2 with
        | cons c d => rw [holds_unique t a c, fields_unique r b d]
theorem items_unique {h : Heap S} : ∀ (i : Items S) {xs : List (Value S)} {i' : Items S},
    HoldsItems h xs i → HoldsItems h xs i' → i = i'
  | .nil, xs, i', h1, h2 => by cases h1; cases h2; rfl
  | .cons t r, xs, i', h1, h2 => by
      cases h1 with
      | cons a b =>
        cases h2 with
        | cons c d => rw [holds_unique t a c, items_unique r b d]
end

/-- All objects are still what they were. -/
def Ext (h h' : Heap S) : Prop := ∀ (a : Nat) (o : Obj S), h[a]? = some o → h'[a]? = some o

theorem Ext.refl (h : Heap S) : Ext h h := fun _ _ e => e

theorem Ext.trans {h h' h'' : Heap S} (a : Ext h h') (b : Ext h' h'') : Ext h h'' := fun x o e => b x o (a x o e)

theorem Ext.append (h : Heap S) (o : Obj S) : Ext h (h ++ [o]) := by
  intro a x e
  rw [List.getElem?_append_left]
  · exact e
  · exact (List.getElem?_eq_some_iff.1 e).1

mutual
theorem holds_mono {h h' : Heap S} (x : Ext h h') : ∀ (t : Tree S) {v : Value S}, Holds h v t → Holds h' v t
  | .leaf s, v, a => by cases a; exact .leaf s
  | .dict f, v, a => by
      cases a with
      | dict e b => exact .dict (x _ _ e) (fields_mono x f b)
  | .list i, v, a => by
      cases a with
      | list e b => exact .list (x _ _ e) (items_mono x i b)
theorem fields_mono {h h' : Heap S} (x : Ext h h') : ∀ (f : Fields S) {es : List (String × Value S)},
    HoldsFields h es f → HoldsFields h' es f
  | .nil, es, a => by cases a; exact .nil
  | .cons k t r, es, a => by
      cases a with
      | cons b c => exact .cons (holds_mono x t b) (fields_mono x r c)
theorem items_mono {h h' : Heap S} (x : Ext h h') : ∀ (i : Items S) {xs : List (Value S)},
    HoldsItems h xs i → HoldsItems h' xs i
  | .nil, xs, a => by cases a; exact .nil
  | .cons t r, xs, a => by
      cases a with
      | cons b c => exact .cons (holds_mono x t b) (items_mono x r c)
end

mutual
theorem made_mono {h h' : Heap S} (x : Ext h h') : ∀ (t : Tree S) {v : Value S}, Made h v t → Made h' v t
  | .leaf s, v, a => by cases a; exact .leaf s
  | .dict f, v, a => by
      cases a with
      | dict e b => exact .dict (x _ _ e) (madeFields_mono x f b)
  | .list i, v, a => by
      cases a with
      | list e b => exact .list (x _ _ e) (madeItems_mono x i b)
theorem madeFields_mono {h h' : Heap S} (x : Ext h h') : ∀ (f : Fields S) {es : List (String × Value S)},
    MadeFields h es f → MadeFields h' es f
  | .nil, es, a => by cases a; exact .nil
  | .cons k t r, es, a => by
      cases a with
      | cons b c => exact .cons (made_mono x t b) (madeFields_mono x r c)
theorem madeItems_mono {h h' : Heap S} (x : Ext h h') : ∀ (i : Items S) {xs : List (Value S)},
    MadeItems h xs i → MadeItems h' xs i
  | .nil, xs, a => by cases a; exact .nil
  | .cons t r, xs, a => by
      cases a with
      | leaf c => exact .leaf (madeItems_mono x r c)
      | dict b c => exact .dict (made_mono x _ b) (madeItems_mono x r c)
end

/-- All values hold the data that they held. -/
def Keeps (h h' : Heap S) : Prop := ∀ v t, Holds h v t → Holds h' v t

theorem Ext.keeps {h h' : Heap S} (x : Ext h h') : Keeps h h' := fun _ t a => holds_mono x t a

theorem Keeps.refl (h : Heap S) : Keeps h h := fun _ _ a => a

theorem Keeps.trans {h h' h'' : Heap S} (a : Keeps h h') (b : Keeps h' h'') : Keeps h h'' :=
  fun v t e => b v t (a v t e)

theorem Keeps.fields {h h' : Heap S} (k : Keeps h h') : ∀ {es : List (String × Value S)} (f : Fields S),
    HoldsFields h es f → HoldsFields h' es f
  | es, .nil, a => by cases a; exact .nil
  | es, .cons n t r, a => by
      cases a with
      | cons b c => exact .cons (k _ _ b) (k.fields r c)

/-- The item at a place. -/
def nth : Items S → Nat → Option (Tree S)
  | .nil, _ => none
  | .cons t _, 0 => some t
  | .cons _ r, i + 1 => nth r i

theorem nth_depth : ∀ (I : Items S) (i : Nat) {t : Tree S}, nth I i = some t → t.depth ≤ I.depth
  | .nil, i, t, e => by cases e
  | .cons a r, 0, t, e => by
      simp only [nth, Option.some.injEq] at e
      subst e
      simp only [Items.depth]
      exact Nat.le_max_left _ _
  | .cons a r, i + 1, t, e => by
      simp only [Items.depth]
      exact Nat.le_trans (nth_depth r i e) (Nat.le_max_right _ _)

theorem items_get {h : Heap S} : ∀ {xs : List (Value S)} (I : Items S), HoldsItems h xs I → ∀ {i : Nat} {v : Value S},
    xs[i]? = some v → ∃ t, nth I i = some t ∧ Holds h v t
  | _, .nil, a, i, v, e => by cases a; cases e
  | _, .cons t r, a, i, v, e => by
      cases a with
      | cons b c =>
        cases i with
        | zero => simp only [List.getElem?_cons_zero, Option.some.injEq] at e; subst e; exact ⟨t, rfl, b⟩
        | succ i => exact items_get r c (by simpa using e)

theorem items_nth {h : Heap S} : ∀ {xs : List (Value S)} (I : Items S), HoldsItems h xs I → ∀ {i : Nat} {t : Tree S},
    nth I i = some t → ∃ v, xs[i]? = some v ∧ Holds h v t
  | _, .nil, a, i, t, e => by cases e
  | _, .cons u r, a, i, t, e => by
      cases a with
      | cons b c =>
        cases i with
        | zero => simp only [nth, Option.some.injEq] at e; subst e; exact ⟨_, rfl, b⟩
        | succ i =>
          obtain ⟨v, h1, h2⟩ := items_nth r c e
          exact ⟨v, by simpa using h1, h2⟩

theorem items_length {h h' : Heap S} : ∀ (I : Items S) {xs ys : List (Value S)}, HoldsItems h xs I →
    HoldsItems h' ys I → xs.length = ys.length
  | .nil, xs, ys, a, b => by cases a; cases b; rfl
  | .cons t r, xs, ys, a, b => by
      cases a with
      | cons _ c =>
        cases b with
        | cons _ d => simp only [List.length_cons, items_length r c d]

/-! ### Changing an item of a list -/

theorem get_set {h : Heap S} {l : Addr} {xs : List (Value S)} (hl : h[l]? = some (.list xs)) (o : Obj S) (a : Addr) :
    (h.set l o)[a]? = if a = l then some o else h[a]? := by
  rw [List.getElem?_set]
  have hlt := (List.getElem?_eq_some_iff.1 hl).1
  by_cases e : l = a
  · subst e; simp [hlt]
  · simp [e, Ne.symm e]

mutual
theorem holds_set {h : Heap S} {l : Addr} {xs : List (Value S)} {i : Nat} {v w : Value S}
    (hl : h[l]? = some (.list xs)) (hi : xs[i]? = some v) (hw : ∀ t, Holds h v t → Holds h w t) :
    ∀ (t : Tree S) {u : Value S}, Holds h u t → Holds (h.set l (.list (xs.set i w))) u t
  | .leaf s, u, a => by cases a; exact .leaf s
  | .dict f, u, a => by
      cases a with
      | @dict r _ _ _ e b =>
        have hne : r ≠ l := by rintro rfl; rw [hl] at e; cases e
        exact .dict (by rw [get_set hl, if_neg hne]; exact e) (fields_set hl hi hw f b)
  | .list I, u, a => by
      cases a with
      | @list r ys _ e b =>
        by_cases hr : r = l
        · subst hr
          rw [hl] at e
          cases e
          exact .list (by rw [get_set hl, if_pos rfl]) (items_put hl hi hw I b hi)
        · exact .list (by rw [get_set hl, if_neg hr]; exact e) (items_set hl hi hw I b)
theorem fields_set {h : Heap S} {l : Addr} {xs : List (Value S)} {i : Nat} {v w : Value S}
    (hl : h[l]? = some (.list xs)) (hi : xs[i]? = some v) (hw : ∀ t, Holds h v t → Holds h w t) :
    ∀ (f : Fields S) {es : List (String × Value S)}, HoldsFields h es f →
      HoldsFields (h.set l (.list (xs.set i w))) es f
  | .nil, es, a => by cases a; exact .nil
  | .cons k t r, es, a => by
      cases a with
      | cons b c => exact .cons (holds_set hl hi hw t b) (fields_set hl hi hw r c)
theorem items_set {h : Heap S} {l : Addr} {xs : List (Value S)} {i : Nat} {v w : Value S}
    (hl : h[l]? = some (.list xs)) (hi : xs[i]? = some v) (hw : ∀ t, Holds h v t → Holds h w t) :
    ∀ (I : Items S) {ys : List (Value S)}, HoldsItems h ys I → HoldsItems (h.set l (.list (xs.set i w))) ys I
  | .nil, ys, a => by cases a; exact .nil
  | .cons t r, ys, a => by
      cases a with
      | cons b c => exact .cons (holds_set hl hi hw t b) (items_set hl hi hw r c)
theorem items_put {h : Heap S} {l : Addr} {xs : List (Value S)} {i : Nat} {v w : Value S}
    (hl : h[l]? = some (.list xs)) (hi : xs[i]? = some v) (hw : ∀ t, Holds h v t → Holds h w t) :
    ∀ (I : Items S) {ys : List (Value S)} {j : Nat}, HoldsItems h ys I → ys[j]? = some v →
      HoldsItems (h.set l (.list (xs.set i w))) (ys.set j w) I
  | .nil, ys, j, a, e => by cases a; cases e
  | .cons t r, ys, j, a, e => by
      cases a with
      | cons b c =>
        cases j with
        | zero =>
          simp only [List.getElem?_cons_zero, Option.some.injEq] at e
          subst e
          exact .cons (holds_set hl hi hw t (hw t b)) (items_set hl hi hw r c)
        | succ j => exact .cons (holds_set hl hi hw t b) (items_put hl hi hw r c (by simpa using e))
end

/-! ### New objects -/

/-- The objects from address `b` on refer to objects from `b` on. -/
def Closed (b : Nat) (h : Heap S) : Prop := ∀ (a : Nat) (o : Obj S), b ≤ a → h[a]? = some o → ∀ d, o.Refers d → b ≤ d

/-- The objects before address `b` are what they were. -/
def Same (b : Nat) (h h' : Heap S) : Prop := ∀ a : Nat, a < b → h'[a]? = h[a]?

/-- A value that is no object before address `b`. -/
def Above (b : Nat) (v : Value S) : Prop := ∀ a, v = .ref a → b ≤ a

theorem Same.refl (b : Nat) (h : Heap S) : Same b h h := fun _ _ => rfl

theorem Same.trans {b : Nat} {h h' h'' : Heap S} (x : Same b h h') (y : Same b h' h'') : Same b h h'' :=
  fun a e => (y a e).trans (x a e)

theorem Same.append {b : Nat} {h : Heap S} (hb : b ≤ h.length) (o : Obj S) : Same b h (h ++ [o]) := by
  intro a ha
  rw [List.getElem?_append_left (Nat.lt_of_lt_of_le ha hb)]

theorem Closed.append {b : Nat} {h : Heap S} (hc : Closed b h) {o : Obj S} (ho : ∀ d, o.Refers d → b ≤ d) :
    Closed b (h ++ [o]) := by
  intro a x ha e
  by_cases hlt : a < h.length
  · rw [List.getElem?_append_left hlt] at e
    exact hc a x ha e
  · rw [List.getElem?_append_right (Nat.le_of_not_lt hlt)] at e
    cases hk : a - h.length with
    | zero => rw [hk] at e; cases e; exact ho
    | succ k => rw [hk] at e; cases e

theorem Closed.set {b : Nat} {h : Heap S} (hc : Closed b h) {l : Addr} {o : Obj S} (ho : ∀ d, o.Refers d → b ≤ d) :
    Closed b (h.set l o) := by
  intro a x ha e
  rw [List.getElem?_set] at e
  split at e
  · split at e
    · cases e; exact ho
    · cases e
  · exact hc a x ha e

theorem Same.set {b : Nat} {h : Heap S} {l : Addr} (hl : b ≤ l) (o : Obj S) : Same b h (h.set l o) := by
  intro a ha
  rw [List.getElem?_set_ne (by omega)]

theorem Same.ext {h h' : Heap S} (s : Same h.length h h') : Ext h h' := by
  intro a o e
  rw [s a (List.getElem?_eq_some_iff.1 e).1]
  exact e

/-! ### `AttrDict` -/

/-- What `AttrDict` of a dictionary does. -/
def Builds (f : Heap S → Addr → Option (Addr × Heap S)) (fuel : Nat) : Prop :=
  ∀ (h : Heap S) (d : Addr) (F : Fields S), Holds h (.ref d) (.dict F) → F.depth + 1 ≤ fuel →
    ∃ w h', f h d = some (w, h') ∧ Keeps h h' ∧ Holds h' (.ref w) (.dict F) ∧ h.length ≤ h'.length ∧
      ∀ b, b ≤ h.length → Closed b h → b ≤ d → Same b h h' ∧ Closed b h' ∧ b ≤ w

theorem isDict_some {h : Heap S} {v : Value S} {d : Addr} (e : isDict h v = some d) : v = .ref d := by
  cases v with
  | leaf s => cases e
  | ref a =>
    simp only [isDict] at e
    split at e
    · cases e; rfl
    · cases e

theorem isDict_holds {h : Heap S} {v : Value S} {d : Addr} {t : Tree S} (e : isDict h v = some d) (a : Holds h v t) :
    ∃ F, t = .dict F := by
  have := isDict_some e
  subst this
  cases a with
  | dict _ _ => exact ⟨_, rfl⟩
  | list e' _ =>
    simp only [isDict, e'] at e
    cases e

theorem convert_ok {f : Heap S → Addr → Option (Addr × Heap S)} {fuel : Nat} (hf : Builds f fuel) {l : Addr} {I : Items S}
    (hd : I.depth ≤ fuel) : ∀ (n i : Nat) (h : Heap S) (xs : List (Value S)), h[l]? = some (.list xs) →
      HoldsItems h xs I → i + n = xs.length →
      ∃ h', convert f l n i h = some h' ∧ Keeps h h' ∧ h.length ≤ h'.length ∧
        ∀ b, b ≤ h.length → Closed b h → b ≤ l → Same b h h' ∧ Closed b h' := by
  intro n
  induction n with
  | zero =>
    intro i h xs _ _ _
    exact ⟨h, rfl, Keeps.refl h, Nat.le_refl _, fun b _ hc _ => ⟨Same.refl b h, hc⟩⟩
  | succ n ih =>
    intro i h xs hl hx hn
    have hlt : i < xs.length := by omega
    have hv : xs[i]? = some xs[i] := List.getElem?_eq_getElem hlt
    have hat : itemAt h l i = some xs[i] := by simp only [itemAt, hl, hv]
    obtain ⟨t, ht, hold⟩ := items_get I hx hv
    simp only [convert, hat]
    cases hdv : isDict h xs[i] with
    | none =>
      obtain ⟨h', e1, e2, e3, e4⟩ := ih (i + 1) h xs hl hx (by omega)
      exact ⟨h', e1, e2, e3, e4⟩
    | some d =>
      obtain ⟨F, rfl⟩ := isDict_holds hdv hold
      have hvd := isDict_some hdv
      rw [hvd] at hold
      have hdep : F.depth + 1 ≤ fuel := Nat.le_trans (by simpa [Tree.depth] using nth_depth I i ht) hd
      obtain ⟨w, h1, e1, e2, e3, e4, e5⟩ := hf h d F hold hdep
      have hlist : Holds h1 (.ref l) (.list I) := e2 _ _ (.list hl hx)
      cases hlist with
      | @list _ ys _ hl1 hy =>
        obtain ⟨v', hv', hold'⟩ := items_nth I hy ht
        have hw : ∀ u, Holds h1 v' u → Holds h1 (.ref w) u := by
          intro u hu
          rw [holds_unique _ hu hold']
          exact e3
        have hset : setItem h1 l i (.ref w) = h1.set l (.list (ys.set i (.ref w))) := by simp only [setItem, hl1]
        have hk : Keeps h1 (h1.set l (.list (ys.set i (.ref w)))) := fun v t a => holds_set hl1 hv' hw t a
        have hlen := items_length I hx hy
        obtain ⟨h', g1, g2, g3, g4⟩ := ih (i + 1) (h1.set l (.list (ys.set i (.ref w)))) (ys.set i (.ref w))
          (by rw [get_set hl1, if_pos rfl]) (items_put hl1 hv' hw I hy hv') (by simp only [List.length_set]; omega)
        refine ⟨h', ?_, e2.trans (hk.trans g2), ?_, ?_⟩
        · simp only [e1, hset]; exact g1
        · rw [List.length_set] at g3; exact Nat.le_trans e4 g3
        · intro b hb hc hbl
          have hbd : b ≤ d := hc l _ hbl hl d (by
            show Value.ref d ∈ xs
            rw [← hvd]
            exact List.getElem_mem hlt)
          obtain ⟨s1, c1, w1⟩ := e5 b hb hc hbd
          have c2 : Closed b (h1.set l (.list (ys.set i (.ref w)))) := by
            refine c1.set ?_
            intro x hx'
            rcases List.mem_or_eq_of_mem_set hx' with hm | hm
            · exact c1 l _ hbl hl1 x hm
            · cases hm; exact w1
          obtain ⟨s3, c3⟩ := g4 b (by rw [List.length_set]; omega) c2 hbl
          exact ⟨s1.trans ((Same.set hbl _).trans s3), c3⟩

theorem initValue_ok {f : Heap S → Addr → Option (Addr × Heap S)} {fuel : Nat} (hf : Builds f fuel) {h : Heap S}
    {v : Value S} {t : Tree S} (hv : Holds h v t) (hd : t.depth ≤ fuel) :
    ∃ w h', initValue f h v = some (w, h') ∧ Keeps h h' ∧ Holds h' w t ∧ h.length ≤ h'.length ∧
      ∀ b, b ≤ h.length → Closed b h → Above b v → Same b h h' ∧ Closed b h' ∧ Above b w := by
  cases hv with
  | leaf s =>
    exact ⟨.leaf s, h, rfl, Keeps.refl h, .leaf s, Nat.le_refl _, fun b _ hc ha => ⟨Same.refl b h, hc, ha⟩⟩
  | @dict r attr es F e a =>
    obtain ⟨w, h', e1, e2, e3, e4, e5⟩ := hf h r F (.dict e a) (by simpa [Tree.depth] using hd)
    refine ⟨.ref w, h', by simp only [initValue, e, e1], e2, e3, e4, ?_⟩
    intro b hb hc ha
    obtain ⟨s, c, x⟩ := e5 b hb hc (ha r rfl)
    exact ⟨s, c, fun y hy => by cases hy; exact x⟩
  | @list r xs I e a =>
    obtain ⟨h', e1, e2, e3, e4⟩ := convert_ok hf (l := r) (by simpa [Tree.depth] using hd) xs.length 0 h xs e a (by omega)
    refine ⟨.ref r, h', by simp only [initValue, e, e1], e2, e2 _ _ (.list e a), e3, ?_⟩
    intro b hb hc ha
    obtain ⟨s, c⟩ := e4 b hb hc (ha r rfl)
    exact ⟨s, c, ha⟩

theorem initEntries_ok {f : Heap S → Addr → Option (Addr × Heap S)} {fuel : Nat} (hf : Builds f fuel) :
    ∀ (F : Fields S) (h : Heap S) (es : List (String × Value S)), HoldsFields h es F → F.depth ≤ fuel →
    ∃ es' h', initEntries f h es = some (es', h') ∧ Keeps h h' ∧ HoldsFields h' es' F ∧ h.length ≤ h'.length ∧
      ∀ b, b ≤ h.length → Closed b h → (∀ e ∈ es, Above b e.2) →
        Same b h h' ∧ Closed b h' ∧ ∀ e ∈ es', Above b e.2
  | .nil, h, es, a, _ => by
      cases a
      exact ⟨[], h, rfl, Keeps.refl h, .nil, Nat.le_refl _, fun b _ hc _ => ⟨Same.refl b h, hc, by simp⟩⟩
  | .cons k t r, h, es, a, hd => by
      simp only [Fields.depth] at hd
      cases a with
      | @cons _ v _ es _ x y =>
        obtain ⟨w, h1, e1, e2, e3, e4, e5⟩ := initValue_ok hf x (Nat.le_trans (Nat.le_max_left _ _) hd)
        obtain ⟨es', h2, g1, g2, g3, g4, g5⟩ := initEntries_ok hf r h1 es (e2.fields r y)
          (Nat.le_trans (Nat.le_max_right _ _) hd)
        refine ⟨(k, w) :: es', h2, by simp only [initEntries, e1, g1], e2.trans g2, .cons (g2 _ _ e3) g3,
          Nat.le_trans e4 g4, ?_⟩
        intro b hb hc ha
        obtain ⟨s1, c1, x1⟩ := e5 b hb hc (ha _ List.mem_cons_self)
        obtain ⟨s2, c2, x2⟩ := g5 b (Nat.le_trans hb e4) c1 (fun e he => ha e (List.mem_cons_of_mem _ he))
        refine ⟨s1.trans s2, c2, ?_⟩
        intro e he
        rcases List.mem_cons.1 he with rfl | he
        · exact x1
        · exact x2 e he

theorem attrDict_ok : ∀ fuel : Nat, Builds (S := S) (attrDict fuel) fuel := by
  intro fuel
  induction fuel with
  | zero => intro h d F _ hd; omega
  | succ fuel ih =>
    intro h d F hF hd
    cases hF with
    | @dict _ attr es _ e a =>
      obtain ⟨es', h', e1, e2, e3, e4, e5⟩ := initEntries_ok ih F h es a (by omega)
      have x := Ext.append h' (.dict true es')
      refine ⟨h'.length, h' ++ [.dict true es'], by simp only [attrDict, e, e1], e2.trans x.keeps,
        .dict (attr := true) (es := es') (by simp) (fields_mono x F e3), ?_, ?_⟩
      · simp only [List.length_append, List.length_cons, List.length_nil]; omega
      · intro b hb hc hbd
        obtain ⟨s, c, ab⟩ := e5 b hb hc (fun p hp q hq => hc d _ hbd e q ⟨p.1, by rw [← hq]; exact hp⟩)
        refine ⟨s.trans (Same.append (by omega) _), c.append ?_, by omega⟩
        rintro q ⟨k, hk⟩
        exact ab _ hk q rfl

/-! ### `as_dict` -/

/-- What `as_dict` of an `AttrDict` does. -/
def Strips (f : Heap S → Addr → Option (Addr × Heap S)) (fuel : Nat) : Prop :=
  ∀ (h : Heap S) (d : Addr) (F : Fields S), Made h (.ref d) (.dict F) → F.depth + 1 ≤ fuel →
    ∃ w h', f h d = some (w, h') ∧ Ext h h' ∧ Holds h' (.ref w) (.dict F) ∧ h.length ≤ h'.length ∧
      ∀ b, b ≤ h.length → Closed b h → Closed b h' ∧ b ≤ w

theorem plainItems_ok {f : Heap S → Addr → Option (Addr × Heap S)} {fuel : Nat} (hf : Strips f fuel) :
    ∀ (I : Items S) (h : Heap S) (xs : List (Value S)), MadeItems h xs I → I.depth ≤ fuel →
    ∃ ws h', plainItems f h xs = some (ws, h') ∧ Ext h h' ∧ HoldsItems h' ws I ∧ h.length ≤ h'.length ∧
      ∀ b, b ≤ h.length → Closed b h → Closed b h' ∧ ∀ w ∈ ws, Above b w
  | .nil, h, xs, a, _ => by
      cases a
      exact ⟨[], h, rfl, Ext.refl h, .nil, Nat.le_refl _, fun b _ hc => ⟨hc, by simp⟩⟩
  | .cons t r, h, xs, a, hd => by
      simp only [Items.depth] at hd
      have hr := Nat.le_trans (Nat.le_max_right t.depth r.depth) hd
      cases a with
      | @leaf s ys _ y =>
        obtain ⟨ws, h', e1, e2, e3, e4, e5⟩ := plainItems_ok hf r h ys y hr
        refine ⟨.leaf s :: ws, h', by simp only [plainItems, plainItem, isAttr, e1], e2, .cons (.leaf s) e3, e4, ?_⟩
        intro b hb hc
        obtain ⟨c, x⟩ := e5 b hb hc
        refine ⟨c, ?_⟩
        intro w hw
        rcases List.mem_cons.1 hw with rfl | hw
        · intro q hq; cases hq
        · exact x w hw
      | @dict d F ys _ m y =>
        have hdep : F.depth + 1 ≤ fuel := Nat.le_trans (by simp only [Tree.depth]; exact Nat.le_max_left _ _) hd
        obtain ⟨w, h1, e1, e2, e3, e4, e5⟩ := hf h d F m hdep
        obtain ⟨ws, h', g1, g2, g3, g4, g5⟩ := plainItems_ok hf r h1 ys (madeItems_mono e2 r y) hr
        have hat : isAttr h (.ref d) = some d := by
          cases m with
          | dict e _ => simp only [isAttr, e]
        refine ⟨.ref w :: ws, h', by simp only [plainItems, plainItem, hat, e1, g1], e2.trans g2,
          .cons (holds_mono g2 _ e3) g3, Nat.le_trans e4 g4, ?_⟩
        intro b hb hc
        obtain ⟨c1, x1⟩ := e5 b hb hc
        obtain ⟨c2, x2⟩ := g5 b (Nat.le_trans hb e4) c1
        refine ⟨c2, ?_⟩
        intro v hv
        rcases List.mem_cons.1 hv with rfl | hv
        · intro q hq; cases hq; exact x1
        · exact x2 v hv

theorem plainValue_ok {f : Heap S → Addr → Option (Addr × Heap S)} {fuel : Nat} (hf : Strips f fuel) {h : Heap S}
    {v : Value S} {t : Tree S} (hv : Made h v t) (hd : t.depth ≤ fuel) :
    ∃ w h', plainValue f h v = some (w, h') ∧ Ext h h' ∧ Holds h' w t ∧ h.length ≤ h'.length ∧
      ∀ b, b ≤ h.length → Closed b h → Closed b h' ∧ Above b w := by
  cases hv with
  | leaf s =>
    exact ⟨.leaf s, h, rfl, Ext.refl h, .leaf s, Nat.le_refl _, fun b _ hc => ⟨hc, fun q hq => by cases hq⟩⟩
  | @dict r es F e a =>
    obtain ⟨w, h', e1, e2, e3, e4, e5⟩ := hf h r F (.dict e a) (by simpa [Tree.depth] using hd)
    refine ⟨.ref w, h', by simp only [plainValue, e, e1], e2, e3, e4, ?_⟩
    intro b hb hc
    obtain ⟨c, x⟩ := e5 b hb hc
    exact ⟨c, fun y hy => by cases hy; exact x⟩
  | @list r xs I e a =>
    obtain ⟨ws, h', e1, e2, e3, e4, e5⟩ := plainItems_ok hf I h xs a (by simpa [Tree.depth] using hd)
    have x := Ext.append h' (.list ws)
    refine ⟨.ref h'.length, h' ++ [.list ws], by simp only [plainValue, e, e1], e2.trans x,
      .list (xs := ws) (by simp) (items_mono x I e3), ?_, ?_⟩
    · simp only [List.length_append, List.length_cons, List.length_nil]; omega
    · intro b hb hc
      obtain ⟨c, y⟩ := e5 b hb hc
      exact ⟨c.append (fun d hm => y _ hm d rfl), fun q hq => by cases hq; omega⟩

theorem plainEntries_ok {f : Heap S → Addr → Option (Addr × Heap S)} {fuel : Nat} (hf : Strips f fuel) :
    ∀ (F : Fields S) (h : Heap S) (es : List (String × Value S)), MadeFields h es F → F.depth ≤ fuel →
    ∃ es' h', plainEntries f h es = some (es', h') ∧ Ext h h' ∧ HoldsFields h' es' F ∧ h.length ≤ h'.length ∧
      ∀ b, b ≤ h.length → Closed b h → Closed b h' ∧ ∀ e ∈ es', Above b e.2
  | .nil, h, es, a, _ => by
      cases a
      exact ⟨[], h, rfl, Ext.refl h, .nil, Nat.le_refl _, fun b _ hc => ⟨hc, by simp⟩⟩
  | .cons k t r, h, es, a, hd => by
      simp only [Fields.depth] at hd
      cases a with
      | @cons _ v _ es _ x y =>
        obtain ⟨w, h1, e1, e2, e3, e4, e5⟩ := plainValue_ok hf x (Nat.le_trans (Nat.le_max_left _ _) hd)
        obtain ⟨es', h2, g1, g2, g3, g4, g5⟩ := plainEntries_ok hf r h1 es (madeFields_mono e2 r y)
          (Nat.le_trans (Nat.le_max_right _ _) hd)
        refine ⟨(k, w) :: es', h2, by simp only [plainEntries, e1, g1], e2.trans g2, .cons (holds_mono g2 _ e3) g3,
          Nat.le_trans e4 g4, ?_⟩
        intro b hb hc
        obtain ⟨c1, x1⟩ := e5 b hb hc
        obtain ⟨c2, x2⟩ := g5 b (Nat.le_trans hb e4) c1
        refine ⟨c2, ?_⟩
        intro e he
        rcases List.mem_cons.1 he with rfl | he
        · exact x1
        · exact x2 e he

theorem asDict_ok : ∀ fuel : Nat, Strips (S := S) (asDict fuel) fuel := by
  intro fuel
  induction fuel with
  | zero => intro h d F _ hd; omega
  | succ fuel ih =>
    intro h d F hF hd
    cases hF with
    | @dict _ es _ e a =>
      obtain ⟨es', h', e1, e2, e3, e4, e5⟩ := plainEntries_ok ih F h es a (by omega)
      have x := Ext.append h' (.dict false es')
      refine ⟨h'.length, h' ++ [.dict false es'], by simp only [asDict, e, e1], e2.trans x,
        .dict (attr := false) (es := es') (by simp) (fields_mono x F e3), ?_, ?_⟩
      · simp only [List.length_append, List.length_cons, List.length_nil]; omega
      · intro b hb hc
        obtain ⟨c, ab⟩ := e5 b hb hc
        refine ⟨c.append ?_, by omega⟩
        rintro q ⟨k, hk⟩
        exact ab _ hk q rfl

/-! ### `copy` -/

theorem copy_ok (fuel : Nat) (h : Heap S) (r : Addr) (F : Fields S) (hm : Made h (.ref r) (.dict F))
    (hd : F.depth + 1 ≤ fuel) :
    ∃ n h', copy fuel h r = some (n, h') ∧ Same h.length h h' ∧ Holds h' (.ref n) (.dict F) ∧
      Closed h.length h' ∧ h.length ≤ n := by
  obtain ⟨d, h1, e1, e2, e3, e4, e5⟩ := asDict_ok fuel h r F hm hd
  have hc0 : Closed h.length h := by
    intro a o ha e
    have := (List.getElem?_eq_some_iff.1 e).1
    omega
  obtain ⟨c1, d1⟩ := e5 h.length (Nat.le_refl _) hc0
  have s1 : Same h.length h h1 := by
    intro a ha
    rw [List.getElem?_eq_getElem ha]
    exact e2 a _ (List.getElem?_eq_getElem ha)
  cases e3 with
  | @dict _ attr es _ e a =>
    have x := Ext.append h1 (.dict false es)
    have h2 : Holds (h1 ++ [.dict false es]) (.ref h1.length) (.dict F) :=
      .dict (attr := false) (es := es) (by simp) (fields_mono x F a)
    have c2 : Closed h.length (h1 ++ [.dict false es]) := c1.append (fun q hq => c1 d _ d1 e q hq)
    obtain ⟨n, h3, g1, _, g3, _, g5⟩ := attrDict_ok fuel (h1 ++ [.dict false es]) h1.length F h2 hd
    obtain ⟨s3, c3, n3⟩ := g5 h.length (by simp only [List.length_append]; omega) c2 e4
    refine ⟨n, h3, ?_, s1.trans ((Same.append e4 _).trans s3), g3, c3, n3⟩
    simp only [copy, e1, shallow, e, g1]

/-- Someone who has a new object only knows and changes new objects. -/
theorem client_new {b : Nat} {n : Addr} {h0 h : Heap S} {K : List Addr} (hc : Closed b h0) (hn : b ≤ n)
    (hb : b ≤ h0.length) (c : Client n h0 h K) : Same b h0 h ∧ Closed b h ∧ b ≤ h.length ∧ ∀ a ∈ K, b ≤ a := by
  induction c with
  | start => exact ⟨Same.refl b h0, hc, hb, by simpa using hn⟩
  | look _ ha e hd ih =>
    refine ⟨ih.1, ih.2.1, ih.2.2.1, ?_⟩
    intro x hx
    rcases List.mem_cons.1 hx with rfl | hx
    · exact ih.2.1 _ _ (ih.2.2.2 _ ha) e _ hd
    · exact ih.2.2.2 x hx
  | make o _ ho ih =>
    refine ⟨ih.1.trans (Same.append ih.2.2.1 o), ih.2.1.append (fun d hd => ih.2.2.2 d (ho d hd)), ?_, ?_⟩
    · simp only [List.length_append]; have := ih.2.2.1; omega
    · intro x hx
      rcases List.mem_cons.1 hx with rfl | hx
      · exact ih.2.2.1
      · exact ih.2.2.2 x hx
  | change o _ ha ho ih =>
    refine ⟨ih.1.trans (Same.set (ih.2.2.2 _ ha) o), ih.2.1.set (fun d hd => ih.2.2.2 d (ho d hd)), ?_, ih.2.2.2⟩
    rw [List.length_set]
    exact ih.2.2.1

end Copying
end Calliope
