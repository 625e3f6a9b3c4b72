import Verif.Proofs.Union

/-! Lemmas on scenario expansion and override combination. -/

namespace Calliope
namespace ModelDefinition

theorem mem_addNew (s : List String) (x y : String) : y ∈ addNew s x ↔ y ∈ s ∨ y = x := by
  unfold addNew
  split
  · constructor
    · exact Or.inl
    · rintro (h | rfl) <;> assumption
  · simp

theorem nodup_addNew (s : List String) (x : String) (h : s.Nodup) : (addNew s x).Nodup := by
  unfold addNew
  split
  · exact h
  · rename_i hx
    rw [List.nodup_append]
    refine ⟨h, by simp, ?_⟩
    intro a ha b hb
    simp at hb
    subst hb
    rintro rfl
    exact hx ha

theorem mem_foldl_addNew (l acc : List String) (y : String) :
    y ∈ l.foldl addNew acc ↔ y ∈ acc ∨ y ∈ l := by
  induction l generalizing acc with
  | nil => simp
  | cons x l ih =>
    simp only [List.foldl_cons, ih, mem_addNew, List.mem_cons, or_assoc]

theorem nodup_foldl_addNew (l acc : List String) (h : acc.Nodup) :
    (l.foldl addNew acc).Nodup := by
  induction l generalizing acc with
  | nil => exact h
  | cons x l ih => exact ih _ (nodup_addNew _ _ h)

/-- What a correct recursive call returns. -/
def RecOk (s : Scenarios) (rec : List Item → Option (Except Err (List String))) : Prop :=
  (∀ items l, rec items = some (.ok l) →
    l.Nodup ∧ (∀ o, o ∈ l ↔ Reached s items (.name o) ∧ s.scenarios.lookup o = none) ∧
      ∀ i, Reached s items i → ¬ Bad s i) ∧
  (∀ items e, rec items = some (.error e) → e = .modelError ∧ ∃ i, Reached s items i ∧ Bad s i)

theorem Reached.mono {s : Scenarios} {a b : List Item} {i : Item} (h : Reached s a i)
    (hs : ∀ x ∈ a, x ∈ b) : Reached s b i := by
  cases h with
  | here h => exact .here (hs _ h)
  | nested h1 h2 h3 => exact .nested (hs _ h1) h2 h3

theorem reached_cons {s : Scenarios} {x : Item} {xs : List Item} {i : Item} :
    Reached s (x :: xs) i ↔ i = x ∨
      (∃ n sub, x = .name n ∧ s.scenarios.lookup n = some sub ∧ Reached s sub i) ∨
      Reached s xs i := by
  constructor
  · intro h
    cases h with
    | here h =>
      simp at h
      rcases h with h | h
      · exact Or.inl h
      · exact Or.inr (Or.inr (.here h))
    | nested h1 h2 h3 =>
      simp at h1
      rcases h1 with h | h
      · exact Or.inr (Or.inl ⟨_, _, h.symm, h2, h3⟩)
      · exact Or.inr (Or.inr (.nested h h2 h3))
  · rintro (rfl | ⟨n, sub, rfl, h2, h3⟩ | h)
    · exact .here (by simp)
    · exact .nested (by simp) h2 h3
    · exact h.mono (by simp +contextual)

theorem not_reached_nil {s : Scenarios} {i : Item} : ¬ Reached s [] i := by
  intro h
  cases h with
  | here h => simp at h
  | nested h _ _ => simp at h

theorem itemsLoop_ok (s : Scenarios) (rec : List Item → Option (Except Err (List String)))
    (hrec : RecOk s rec) (items : List Item) (acc : List String) (hacc : acc.Nodup) :
    (∀ l, itemsLoop s rec items acc = some (.ok l) →
      l.Nodup ∧ (∀ o, o ∈ l ↔ o ∈ acc ∨ (Reached s items (.name o) ∧ s.scenarios.lookup o = none)) ∧
        ∀ i, Reached s items i → ¬ Bad s i) ∧
    (∀ e, itemsLoop s rec items acc = some (.error e) →
      e = .modelError ∧ ∃ i, Reached s items i ∧ Bad s i) := by
  induction items generalizing acc with
  | nil =>
    constructor
    · intro l h
      simp [itemsLoop] at h
      subst h
      exact ⟨hacc, by simp [not_reached_nil], fun i h => absurd h not_reached_nil⟩
    · intro e h; simp [itemsLoop] at h
  | cons x xs ih =>
    cases x with
    | dict =>
      constructor
      · intro l h; simp [itemsLoop] at h
      · intro e h
        simp [itemsLoop] at h
        exact ⟨h.symm, .dict, .here (by simp), trivial⟩
    | name o =>
      rcases hl : s.scenarios.lookup o with _ | sub
      · by_cases ho : o ∈ s.overrides
        · obtain ⟨ih1, ih2⟩ := ih (addNew acc o) (nodup_addNew _ _ hacc)
          constructor
          · intro l h
            simp only [itemsLoop, hl, ho, if_true] at h
            obtain ⟨a, b, c⟩ := ih1 l h
            refine ⟨a, ?_, ?_⟩
            · intro y
              rw [b, mem_addNew, reached_cons]
              constructor
              · rintro ((h | rfl) | h)
                · exact Or.inl h
                · exact Or.inr ⟨Or.inl rfl, hl⟩
                · exact Or.inr ⟨Or.inr (Or.inr h.1), h.2⟩
              · rintro (h | ⟨h | ⟨n, sub, hn, h2, _⟩ | h, h'⟩)
                · exact Or.inl (Or.inl h)
                · cases h; exact Or.inl (Or.inr rfl)
                · cases hn; rw [hl] at h2; cases h2
                · exact Or.inr ⟨h, h'⟩
            · intro i hi
              rcases reached_cons.1 hi with rfl | ⟨n, sub, hn, h2, _⟩ | h
              · intro hb; exact hb.2 ho
              · cases hn; rw [hl] at h2; cases h2
              · exact c i h
          · intro e h
            simp only [itemsLoop, hl, ho, if_true] at h
            obtain ⟨a, i, b, c⟩ := ih2 e h
            exact ⟨a, i, reached_cons.2 (Or.inr (Or.inr b)), c⟩
        · constructor
          · intro l h; simp [itemsLoop, hl, ho] at h
          · intro e h
            simp [itemsLoop, hl, ho] at h
            exact ⟨h.symm, .name o, .here (by simp), hl, ho⟩
      · rcases hr : rec sub with _ | (e' | l')
        · constructor
          · intro l h; simp [itemsLoop, hl, hr] at h
          · intro e h; simp [itemsLoop, hl, hr] at h
        · constructor
          · intro l h; simp [itemsLoop, hl, hr] at h
          · intro e h
            simp [itemsLoop, hl, hr] at h
            subst h
            obtain ⟨a, i, b, c⟩ := hrec.2 sub e' hr
            exact ⟨a, i, .nested (by simp) hl b, c⟩
        · obtain ⟨r1, r2, r3⟩ := hrec.1 sub l' hr
          obtain ⟨ih1, ih2⟩ := ih (l'.foldl addNew acc) (nodup_foldl_addNew _ _ hacc)
          constructor
          · intro l h
            simp only [itemsLoop, hl, hr] at h
            obtain ⟨a, b, c⟩ := ih1 l h
            refine ⟨a, ?_, ?_⟩
            · intro y
              rw [b, mem_foldl_addNew, r2, reached_cons]
              constructor
              · rintro ((h | h) | h)
                · exact Or.inl h
                · exact Or.inr ⟨Or.inr (Or.inl ⟨o, sub, rfl, hl, h.1⟩), h.2⟩
                · exact Or.inr ⟨Or.inr (Or.inr h.1), h.2⟩
              · rintro (h | ⟨h | ⟨n, sub', hn, h2, h3⟩ | h, h'⟩)
                · exact Or.inl (Or.inl h)
                · cases h; rw [hl] at h'; cases h'
                · cases hn; rw [hl] at h2; cases h2
                  exact Or.inl (Or.inr ⟨h3, h'⟩)
                · exact Or.inr ⟨h, h'⟩
            · intro i hi
              rcases reached_cons.1 hi with rfl | ⟨n, sub', hn, h2, h3⟩ | h
              · intro hb; have := hb.1; rw [hl] at this; cases this
              · cases hn; rw [hl] at h2; cases h2
                exact r3 i h3
              · exact c i h
          · intro e h
            simp only [itemsLoop, hl, hr] at h
            obtain ⟨a, i, b, c⟩ := ih2 e h
            exact ⟨a, i, reached_cons.2 (Or.inr (Or.inr b)), c⟩

theorem loadItems_recOk (s : Scenarios) (fuel : Nat) : RecOk s (loadItems s fuel) := by
  induction fuel with
  | zero =>
    have h0 : RecOk s (fun _ => none) := ⟨by simp, by simp⟩
    constructor
    · intro items l h
      obtain ⟨a, b, c⟩ := (itemsLoop_ok s _ h0 items [] (by simp)).1 l h
      exact ⟨a, by simpa using b, c⟩
    · intro items e h
      exact (itemsLoop_ok s _ h0 items [] (by simp)).2 e h
  | succ n ih =>
    constructor
    · intro items l h
      obtain ⟨a, b, c⟩ := (itemsLoop_ok s _ ih items [] (by simp)).1 l h
      exact ⟨a, by simpa using b, c⟩
    · intro items e h
      exact (itemsLoop_ok s _ ih items [] (by simp)).2 e h

/-- The loop returns whenever the recursive call returns on every nested scenario. -/
theorem itemsLoop_returns (s : Scenarios) (rec : List Item → Option (Except Err (List String)))
    (items : List Item) (acc : List String)
    (h : ∀ n sub, .name n ∈ items → s.scenarios.lookup n = some sub → rec sub ≠ none) :
    itemsLoop s rec items acc ≠ none := by
  induction items generalizing acc with
  | nil => simp [itemsLoop]
  | cons x xs ih =>
    have ih' := fun acc => ih acc (fun n sub hn => h n sub (by simp [hn]))
    cases x with
    | dict => simp [itemsLoop]
    | name o =>
      rcases hl : s.scenarios.lookup o with _ | sub
      · simp only [itemsLoop, hl]
        split
        · exact ih' _
        · simp
      · have := h o sub (by simp) hl
        rcases hr : rec sub with _ | (e | l)
        · exact absurd hr this
        · simp [itemsLoop, hl, hr]
        · simp only [itemsLoop, hl, hr]; exact ih' _

theorem loadItems_returns (s : Scenarios) (rank : String → Nat)
    (hrank : ∀ n sub m sub', s.scenarios.lookup n = some sub → .name m ∈ sub →
      s.scenarios.lookup m = some sub' → rank m < rank n) (fuel : Nat) (items : List Item)
    (h : ∀ m sub, .name m ∈ items → s.scenarios.lookup m = some sub → rank m < fuel) :
    loadItems s fuel items ≠ none := by
  induction fuel generalizing items with
  | zero =>
    apply itemsLoop_returns
    intro n sub hn hl
    exact absurd (h n sub hn hl) (by omega)
  | succ f ih =>
    apply itemsLoop_returns
    intro n sub hn hl
    apply ih
    intro m sub' hm hl'
    have := hrank n sub m sub' hl hm hl'
    have := h n sub hn hl
    omega

theorem itemsLoop_mono (s : Scenarios) (r1 r2 : List Item → Option (Except Err (List String)))
    (hr : ∀ i x, r1 i = some x → r2 i = some x) (items : List Item) (acc : List String)
    (x : Except Err (List String)) (h : itemsLoop s r1 items acc = some x) :
    itemsLoop s r2 items acc = some x := by
  induction items generalizing acc with
  | nil => simpa [itemsLoop] using h
  | cons i xs ih =>
    cases i with
    | dict => simpa [itemsLoop] using h
    | name o =>
      rcases hl : s.scenarios.lookup o with _ | sub
      · simp only [itemsLoop, hl] at h ⊢
        split
        · rename_i ho; rw [if_pos ho] at h; exact ih _ h
        · rename_i ho; rw [if_neg ho] at h; exact h
      · simp only [itemsLoop, hl] at h ⊢
        rcases h1 : r1 sub with _ | (e | l)
        · rw [h1] at h; cases h
        · rw [hr _ _ h1]; rw [h1] at h; exact h
        · rw [hr _ _ h1]; rw [h1] at h; exact ih _ h

theorem loadItems_mono (s : Scenarios) (f : Nat) (items : List Item) (x : Except Err (List String))
    (h : loadItems s f items = some x) : loadItems s (f + 1) items = some x := by
  induction f generalizing items x with
  | zero => exact itemsLoop_mono s _ _ (by simp) items [] x h
  | succ n ih => exact itemsLoop_mono s _ _ (fun i x hx => ih i x hx) items [] x h

/-- If the loop returns a list then the recursive call returned a list on every nested
scenario. -/
theorem itemsLoop_calls (s : Scenarios) (rec : List Item → Option (Except Err (List String)))
    (items : List Item) (acc l : List String) (h : itemsLoop s rec items acc = some (.ok l))
    (n : String) (sub : List Item) (hn : .name n ∈ items) (hl : s.scenarios.lookup n = some sub) :
    ∃ l', rec sub = some (.ok l') := by
  induction items generalizing acc with
  | nil => simp at hn
  | cons x xs ih =>
    cases x with
    | dict => simp [itemsLoop] at h
    | name o =>
      rcases hlo : s.scenarios.lookup o with _ | sub'
      · simp only [itemsLoop, hlo] at h
        have hne : n ≠ o := by rintro rfl; rw [hlo] at hl; cases hl
        split at h
        · exact ih _ h (by simpa [hne] using hn)
        · cases h
      · simp only [itemsLoop, hlo] at h
        rcases hr : rec sub' with _ | (e | l')
        · rw [hr] at h; cases h
        · rw [hr] at h; cases h
        · rw [hr] at h
          by_cases hno : n = o
          · subst hno
            rw [hlo] at hl; cases hl
            exact ⟨l', hr⟩
          · exact ih _ h (by simpa [hno] using hn)

/-- One scenario is named, at some depth, in the items of another. -/
theorem loadItems_depth (s : Scenarios) (f : Nat) (items l : List _)
    (h : loadItems s f items = some (.ok l)) (n : String) (sub : List Item)
    (hr : Reached s items (.name n)) (hl : s.scenarios.lookup n = some sub) :
    ∃ f' l', f' < f ∧ loadItems s f' sub = some (.ok l') := by
  induction f generalizing items l with
  | zero =>
    exfalso
    cases hr with
    | here hn =>
      obtain ⟨l', h'⟩ := itemsLoop_calls s _ items [] l h n sub hn hl
      cases h'
    | nested h1 h2 h3 =>
      obtain ⟨l', h'⟩ := itemsLoop_calls s _ items [] l h _ _ h1 h2
      cases h'
  | succ f ih =>
    cases hr with
    | here hn =>
      obtain ⟨l', h'⟩ := itemsLoop_calls s _ items [] l h n sub hn hl
      exact ⟨f, l', by omega, h'⟩
    | nested h1 h2 h3 =>
      obtain ⟨l', h'⟩ := itemsLoop_calls s _ items [] l h _ _ h1 h2
      obtain ⟨f', l'', hlt, hh⟩ := ih _ _ h' h3
      exact ⟨f', l'', by omega, hh⟩

theorem loadItems_no_self (s : Scenarios) (n : String) (sub : List Item)
    (hl : s.scenarios.lookup n = some sub) (hr : Reached s sub (.name n)) (f : Nat) (l : List String) :
    loadItems s f sub ≠ some (.ok l) := by
  induction f using Nat.strongRecOn generalizing l with
  | _ f ih =>
    intro h
    obtain ⟨f', l', hlt, h'⟩ := loadItems_depth s f sub l h n sub hr hl
    exact ih f' hlt l' h'

/-! ### Combining overrides -/

variable {α : Type}

theorem combine_ok (os : List (Dict α)) (acc : Dict α) (hacc : acc.WF) (hos : ∀ o ∈ os, o.WF)
    (h1 : ∀ o ∈ os, Dict.Separate acc o) (h2 : os.Pairwise Dict.Separate) :
    ∃ d, combineOverrides acc os = .ok d ∧ d.WF ∧
      ∀ p v, d.LeafAt p v ↔ acc.LeafAt p v ∨ ∃ o ∈ os, o.LeafAt p v := by
  induction os generalizing acc with
  | nil => exact ⟨acc, rfl, hacc, by simp⟩
  | cons o os ih =>
    rw [List.pairwise_cons] at h2
    obtain ⟨d', hu, hw, hl⟩ := Dict.union_unrelated acc o hacc (hos o (by simp)) (h1 o (by simp))
    obtain ⟨d, hd, hdw, hdl⟩ := ih d' hw (fun x hx => hos x (by simp [hx]))
      (by
        intro x hx p v q w hp hq
        rcases (hl p v).1 hp with h | h
        · exact h1 x (by simp [hx]) p v q w h hq
        · exact h2.1 x hx p v q w h hq) h2.2
    refine ⟨d, by simp [combineOverrides, hu, hd], hdw, ?_⟩
    intro p v
    rw [hdl, hl]
    simp [or_assoc]

/-! ### Applying overrides -/

theorem lookup_del1_ne (d : Dict α) {k k' : Key} (h : k' ≠ k) (ks : Path) :
    (d.del1 k).lookup (k' :: ks) = d.lookup (k' :: ks) := by
  rw [Dict.lookup_cons, Dict.lookup_cons, Dict.get1_del1_ne d h]

theorem lookup_del1_self (d : Dict α) (hd : d.WF) (k : Key) (ks : Path) :
    (d.del1 k).lookup (k :: ks) = none := by
  rw [Dict.lookup_cons, Dict.get1_del1_self d hd]; rfl

theorem leafAt_del1 (d : Dict α) (hd : d.WF) (k : Key) (p : Path) (v : Val α) :
    (d.del1 k).LeafAt p v ↔ d.LeafAt p v ∧ p.head? ≠ some k := by
  cases p with
  | nil => simp [Dict.LeafAt]
  | cons k' ks =>
    by_cases h : k' = k
    · subst h; simp [Dict.LeafAt, lookup_del1_self d hd]
    · simp [Dict.LeafAt, lookup_del1_ne d h, h]

theorem clear_del1 (d : Dict α) (hd : d.WF) (k : Key) (p : Path) (h : d.Clear p) :
    (d.del1 k).Clear p := by
  rintro q hq hne ⟨a, ha⟩
  apply h q hq hne
  refine ⟨a, ?_⟩
  cases q with
  | nil => simp at ha
  | cons k' ks =>
    by_cases hk : k' = k
    · subst hk; rw [lookup_del1_self d hd] at ha; cases ha
    · rw [lookup_del1_ne d hk] at ha; exact ha

end ModelDefinition
end Calliope
