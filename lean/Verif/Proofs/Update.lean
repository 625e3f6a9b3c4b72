import Verif.Spec.Update
import Mathlib.Data.List.Induction

/-!
# Proofs about `update_input` and reference tracking
-/

namespace Calliope
namespace Update

variable {ι V S : Type}

/-- A backend whose arrays are what its inputs say, and whose reference sets are complete. -/
structure Good (isIn : String → Bool) (defs : List (String × Comp ι V S)) (s : State ι V S) :
    Prop where
  built : ∀ (pre : List (String × Comp ι V S)) (x : String) (c : Comp ι V S)
    (post : List (String × Comp ι V S)), defs = pre ++ (x, c) :: post →
    ∃ v r, c.run s.inputs s.held = some (v, r) ∧ s.held x = some v ∧
      ∀ n ∈ r, (isIn n = true ∨ n ∈ names pre) ∧ x ∈ s.refs n
  only : ∀ n, n ∉ names defs → s.held n = none
  order : s.order.Perm (names defs)
  back : ∀ n x, x ∈ s.refs n → x ∈ names defs ∧ (isIn n = true ∨ [n, x].Sublist (names defs))

theorem mem_insertName {x y : String} {l : List String} :
    y ∈ insertName x l ↔ y = x ∨ y ∈ l := by
  unfold insertName
  split
  · rename_i h
    constructor
    · exact Or.inr
    · rintro (rfl | h')
      · exact h
      · exact h'
  · simp [or_comm]

theorem mem_addRefs {x y n : String} {r : List String} {kn : String → Bool}
    {refs : String → List String} :
    y ∈ addRefs x r kn refs n ↔ (n ∈ r ∧ kn n = true ∧ y = x) ∨ y ∈ refs n := by
  unfold addRefs
  by_cases h : n ∈ r ∧ kn n = true
  · rw [if_pos (by simpa using h), mem_insertName]
    constructor
    · rintro (h' | h')
      · exact Or.inl ⟨h.1, h.2, h'⟩
      · exact Or.inr h'
    · rintro (⟨_, _, h'⟩ | h')
      · exact Or.inl h'
      · exact Or.inr h'
  · rw [if_neg (by simpa using h)]
    constructor
    · exact Or.inr
    · rintro (⟨h1, h2, _⟩ | h')
      · exact absurd ⟨h1, h2⟩ h
      · exact h'

/-! ## Building from scratch gives a good backend -/

theorem add_good {isIn : String → Bool} {done : List (String × Comp ι V S)} {s s' : State ι V S}
    {x : String} {c : Comp ι V S} (hg : Good isIn done s) (ho : s.order = names done)
    (hh : ∀ d ∈ done ++ [(x, c)], Honest isIn d.2) (hx : x ∉ names done) (hi : isIn x = false)
    (hin : ∀ y ∈ names done, isIn y = false)
    (h : add isIn x c s = some s') :
    Good isIn (done ++ [(x, c)]) s' ∧ s'.order = names (done ++ [(x, c)]) ∧
      s'.inputs = s.inputs := by
  unfold add at h
  cases hr : c.run s.inputs s.held with
  | none => rw [hr] at h; cases h
  | some vr =>
    obtain ⟨v, r⟩ := vr
    rw [hr] at h
    dsimp only at h
    have hs' := Option.some.inj h
    subst hs'
    have hc := hh (x, c) (by simp)
    have hpres := hc.present _ _ _ _ hr
    have hdone : ∀ n, (s.held n).isSome = true → n ∈ names done := by
      intro n hn
      by_cases hm : n ∈ names done
      · exact hm
      · rw [hg.only n hm] at hn; cases hn
    have hrx : ∀ n ∈ r, n ≠ x := by
      rintro n hn rfl
      rcases hpres n hn with h | h
      · rw [hi] at h; cases h
      · exact hx (hdone n h)
    have hkn : ∀ n ∈ r, known isIn (setAt s.held x (some v)) n = true := by
      intro n hn
      unfold known setAt
      rw [if_neg (hrx n hn)]
      rcases hpres n hn with h | h
      · simp [h]
      · simp [h]
    have hagree : ∀ n, n ≠ x → setAt s.held x (some v) n = s.held n := by
      intro n hn
      unfold setAt
      rw [if_neg hn]
    refine ⟨⟨?_, ?_, ?_, ?_⟩, ?_, rfl⟩
    · -- built
      intro pre y d post heq
      dsimp only
      rcases List.eq_nil_or_concat post with hp | ⟨post', z, hp⟩
      · subst hp
        have h1 : done = pre ∧ (x, c) = (y, d) := by
          have := List.append_inj' heq (by simp)
          exact ⟨this.1, by simpa using this.2⟩
        obtain ⟨rfl, h2⟩ := h1
        cases h2
        refine ⟨v, r, ?_, by simp [setAt], ?_⟩
        · exact hc.locl _ _ _ _ _ _ hr (fun n hn => ⟨rfl, (hagree n (hrx n hn)).symm⟩)
        · intro n hn
          refine ⟨?_, mem_addRefs.2 (Or.inl ⟨hn, hkn n hn, rfl⟩)⟩
          rcases hpres n hn with h | h
          · exact Or.inl h
          · exact Or.inr (hdone n h)
      · rw [List.concat_eq_append] at hp
        subst hp
        have h1 : done = pre ++ (y, d) :: post' := by
          have h2 : done ++ [(x, c)] = (pre ++ (y, d) :: post') ++ [z] := by
            rw [heq]; simp
          exact (List.append_inj' h2 rfl).1
        obtain ⟨v', r', e1, e2, e3⟩ := hg.built pre y d post' h1
        have hpre : ∀ n, n ∈ names pre → n ≠ x := by
          rintro n hn rfl
          refine hx ?_
          rw [h1]
          simp only [names, List.map_append, List.mem_append]
          exact Or.inl hn
        have hne : ∀ n ∈ r', n ≠ x := by
          rintro n hn rfl
          rcases (e3 n hn).1 with h | h
          · rw [hi] at h; cases h
          · exact hpre _ h rfl
        refine ⟨v', r', ?_, ?_, ?_⟩
        · exact (hh (y, d) (by rw [h1]; simp)).locl _ _ _ _ _ _ e1
            (fun n hn => ⟨rfl, (hagree n (hne n hn)).symm⟩)
        · rw [hagree y ?_]; exact e2
          rintro rfl
          refine hx ?_
          rw [h1]; simp [names]
        · intro n hn
          refine ⟨(e3 n hn).1, mem_addRefs.2 (Or.inr ?_)⟩
          unfold setAt
          rw [if_neg (hne n hn)]
          exact (e3 n hn).2
    · intro n hn
      dsimp only
      have hn' : n ≠ x ∧ n ∉ names done := by
        simp only [names, List.map_append, List.mem_append, not_or, List.map_cons, List.map_nil,
          List.mem_singleton] at hn
        exact ⟨hn.2, hn.1⟩
      rw [hagree n hn'.1]
      exact hg.only n hn'.2
    · dsimp only
      rw [ho]
      simp [names]
    · intro n y hy
      dsimp only at hy
      rcases mem_addRefs.1 hy with ⟨h1, _, rfl⟩ | h1
      · refine ⟨by simp [names], ?_⟩
        rcases hpres n h1 with h | h
        · exact Or.inl h
        · right
          simp only [names, List.map_append, List.map_cons, List.map_nil]
          have : [n].Sublist (List.map Prod.fst done) := List.singleton_sublist.2 (hdone n h)
          exact List.Sublist.append this (List.Sublist.refl [y])
      · unfold setAt at h1
        split at h1
        · cases h1
        · obtain ⟨b1, b2⟩ := hg.back n y h1
          refine ⟨by simp only [names, List.map_append, List.mem_append]; exact Or.inl b1, ?_⟩
          rcases b2 with h | h
          · exact Or.inl h
          · right
            simp only [names, List.map_append]
            exact h.trans (List.sublist_append_left ..)
    · dsimp only
      rw [ho]
      simp [names]

theorem addAll_good {isIn : String → Bool} (todo : List (String × Comp ι V S)) :
    ∀ (done : List (String × Comp ι V S)) (s s' : State ι V S),
    Good isIn done s → s.order = names done → (∀ d ∈ done ++ todo, Honest isIn d.2) →
    (names (done ++ todo)).Nodup → (∀ x ∈ names (done ++ todo), isIn x = false) →
    addAll isIn todo s = some s' →
    Good isIn (done ++ todo) s' ∧ s'.order = names (done ++ todo) ∧ s'.inputs = s.inputs := by
  induction todo with
  | nil =>
    intro done s s' hg ho _ _ _ h
    cases h
    simpa using ⟨hg, ho⟩
  | cons xc r ih =>
    obtain ⟨x, c⟩ := xc
    intro done s s' hg ho hh hn hi h
    unfold addAll at h
    cases ha : add isIn x c s with
    | none => rw [ha] at h; cases h
    | some s1 =>
      rw [ha] at h
      dsimp only at h
      have hcat : done ++ (x, c) :: r = (done ++ [(x, c)]) ++ r := by simp
      have hx : x ∉ names done := by
        intro hm
        simp only [names, List.map_append, List.map_cons] at hn
        rw [List.nodup_append] at hn
        exact hn.2.2 x hm x (by simp) rfl
      obtain ⟨g1, o1, i1⟩ := add_good hg ho (fun d hd => hh d (by rw [hcat]; simp only [List.mem_append] at hd ⊢; exact Or.inl hd))
        hx (hi x (by simp [names])) (fun y hy => hi y (by simp only [names, List.map_append, List.mem_append]; exact Or.inl hy)) ha
      rw [hcat] at hh hn hi ⊢
      obtain ⟨g2, o2, i2⟩ := ih (done ++ [(x, c)]) s1 s' g1 o1 hh hn hi h
      exact ⟨g2, o2, i2.trans i1⟩

theorem scratch_good {isIn : String → Bool} {defs : List (String × Comp ι V S)}
    (hm : Math isIn defs) {i : Inputs ι V} {t : State ι V S} (h : scratch isIn defs i = some t) :
    Good isIn defs t ∧ t.order = names defs ∧ t.inputs = i := by
  have := addAll_good (isIn := isIn) defs [] ⟨i, [], fun _ => none, fun _ => []⟩ t
    ⟨by intro pre x c post h; exact absurd h (by simp), fun _ _ => rfl, by simp [names],
      by intro n x h; cases h⟩ rfl
    (by simpa using hm.honest) (by simpa using hm.nodup) (by simpa using hm.notIn) h
  simpa using this

/-- Two good backends with the same inputs hold the same arrays. -/
theorem good_unique {isIn : String → Bool} {defs : List (String × Comp ι V S)}
    (hm : Math isIn defs) {s t : State ι V S} (hs : Good isIn defs s) (ht : Good isIn defs t)
    (hi : s.inputs = t.inputs) : s.held = t.held := by
  have key : ∀ (pre post : List (String × Comp ι V S)), defs = pre ++ post →
      ∀ x ∈ names pre, s.held x = t.held x := by
    intro pre
    induction pre using List.reverseRecOn with
    | nil => intro post _ x hx; cases hx
    | append_singleton pre xc ih =>
      obtain ⟨x, c⟩ := xc
      intro post heq y hy
      have heq' : defs = pre ++ (x, c) :: post := by rw [heq]; simp
      have ih' := ih ((x, c) :: post) heq'
      simp only [names, List.map_append, List.mem_append, List.map_cons, List.map_nil,
        List.mem_singleton] at hy
      rcases hy with hy | rfl
      · exact ih' y hy
      · obtain ⟨v, r, a1, a2, a3⟩ := hs.built pre y c post heq'
        obtain ⟨v', r', b1, b2, _⟩ := ht.built pre y c post heq'
        have hc := hm.honest (y, c) (by rw [heq']; simp)
        have := hc.locl _ t.inputs _ t.held _ _ a1 (by
          intro n hn
          refine ⟨by rw [hi], ?_⟩
          rcases (a3 n hn).1 with h | h
          · have hno : n ∉ names defs := fun hh => by rw [hm.notIn n hh] at h; cases h
            rw [hs.only n hno, ht.only n hno]
          · exact ih' n h)
        rw [b1] at this
        cases this
        rw [a2, b2]
  funext n
  by_cases hn : n ∈ names defs
  · exact key defs [] (by simp) n hn
  · rw [hs.only n hn, ht.only n hn]

/-! ## `_find_all_references` -/

theorem mem_unionNames {x : String} {a b : List String} :
    x ∈ unionNames a b ↔ x ∈ a ∨ x ∈ b := by
  unfold unionNames
  simp only [List.mem_append, List.mem_filter, Bool.not_eq_true', List.contains_eq_mem,
    decide_eq_false_iff_not]
  by_cases h : x ∈ a <;> simp [h]

theorem collect_ok {rec : List String → Option (Except Err (List String))} {kn : String → Bool}
    {refs : String → List String} (xs : List String) :
    ∀ (acc R : List String), collect rec kn refs xs acc = some (.ok R) →
    (∀ x ∈ xs, kn x = true ∧ ∃ l, rec (refs x) = some (.ok l)) ∧
    ∀ z, z ∈ R ↔ z ∈ acc ∨ ∃ x ∈ xs, ∃ l, rec (refs x) = some (.ok l) ∧ z ∈ l := by
  induction xs with
  | nil =>
    intro acc R h
    cases h
    exact ⟨by simp, by simp⟩
  | cons x xs ih =>
    intro acc R h
    unfold collect at h
    by_cases hk : kn x = true
    · rw [if_pos hk] at h
      cases hr : rec (refs x) with
      | none => rw [hr] at h; cases h
      | some e =>
        rw [hr] at h
        cases e with
        | error e => cases h
        | ok l =>
          dsimp only at h
          obtain ⟨h1, h2⟩ := ih _ _ h
          refine ⟨?_, ?_⟩
          · intro y hy
            rcases List.mem_cons.1 hy with rfl | hy
            · exact ⟨hk, l, hr⟩
            · exact h1 y hy
          · intro z
            rw [h2 z, mem_unionNames]
            constructor
            · rintro ((h | h) | ⟨y, hy, l', e, hz⟩)
              · exact Or.inl h
              · exact Or.inr ⟨x, by simp, l, hr, h⟩
              · exact Or.inr ⟨y, by simp [hy], l', e, hz⟩
            · rintro (h | ⟨y, hy, l', e, hz⟩)
              · exact Or.inl (Or.inl h)
              · rcases List.mem_cons.1 hy with rfl | hy
                · rw [hr] at e
                  cases e
                  exact Or.inl (Or.inr hz)
                · exact Or.inr ⟨y, hy, l', e, hz⟩
    · rw [if_neg hk] at h
      cases h

/-- What is collected is what can be reached. -/
theorem findAll_reach {kn : String → Bool} {refs : String → List String} (f : Nat) :
    ∀ (start R : List String), findAll kn refs f start = some (.ok R) →
    (∀ z, z ∈ R ↔ ∃ y ∈ start, Reach refs y z) ∧ ∀ z ∈ R, kn z = true := by
  induction f with
  | zero => intro start R h; cases h
  | succ f ih =>
    intro start R h
    unfold findAll at h
    obtain ⟨h1, h2⟩ := collect_ok start start R h
    refine ⟨?_, ?_⟩
    · intro z
      rw [h2 z]
      constructor
      · rintro (h | ⟨x, hx, l, e, hz⟩)
        · exact ⟨z, h, .here z⟩
        · obtain ⟨y, hy, hr⟩ := ((ih _ _ e).1 z).1 hz
          exact ⟨x, hx, .step hy hr⟩
      · rintro ⟨y, hy, hr⟩
        cases hr with
        | here => exact Or.inl hy
        | step hw hr =>
          obtain ⟨_, l, e⟩ := h1 y hy
          exact Or.inr ⟨y, hy, l, e, ((ih _ _ e).1 z).2 ⟨_, hw, hr⟩⟩
    · intro z hz
      rcases (h2 z).1 hz with h | ⟨x, hx, l, e, hz⟩
      · exact (h1 z h).1
      · exact (ih _ _ e).2 z hz

theorem findAll_walk {kn : String → Bool} {refs : String → List String} (f : Nat) :
    ∀ (start R : List String), findAll kn refs f start = some (.ok R) →
    ∀ y ∈ start, ∀ k z, Walk refs k y z → k < f := by
  induction f with
  | zero => intro start R h; cases h
  | succ f ih =>
    intro start R h y hy k z hw
    unfold findAll at h
    obtain ⟨h1, _⟩ := collect_ok start start R h
    cases hw with
    | here => omega
    | step hm hw =>
      obtain ⟨_, l, e⟩ := h1 y hy
      have := ih _ _ e _ hm _ _ hw
      omega

theorem collect_total {rec : List String → Option (Except Err (List String))} {kn : String → Bool}
    {refs : String → List String} (xs : List String) :
    ∀ (acc : List String), (∀ x ∈ xs, kn x = true ∧ ∃ l, rec (refs x) = some (.ok l)) →
    ∃ R, collect rec kn refs xs acc = some (.ok R) := by
  induction xs with
  | nil => intro acc _; exact ⟨acc, rfl⟩
  | cons x xs ih =>
    intro acc h
    obtain ⟨hk, l, hl⟩ := h x (by simp)
    obtain ⟨R, hR⟩ := ih (unionNames acc l) (fun y hy => h y (by simp [hy]))
    exact ⟨R, by unfold collect; rw [if_pos hk, hl]; exact hR⟩

theorem pair_after {a b : List String} {y z : String} (hn : (a ++ y :: b).Nodup)
    (h : [y, z].Sublist (a ++ y :: b)) : z ∈ b := by
  induction a with
  | nil =>
    cases h with
    | cons _ h =>
      have : y ∈ b := h.subset (by simp)
      simp at hn
      exact absurd this hn.1
    | cons_cons _ h => exact List.singleton_sublist.1 h
  | cons c a ih =>
    simp only [List.cons_append] at hn h
    rw [List.nodup_cons] at hn
    cases h with
    | cons _ h => exact ih hn.2 h
    | cons_cons _ h => exact absurd (by simp) hn.1

/-- On names without cycles the search ends. -/
theorem findAll_total {kn : String → Bool} {refs : String → List String} {nm : List String}
    (hn : nm.Nodup) (hk : ∀ x ∈ nm, kn x = true)
    (hb : ∀ y ∈ nm, ∀ z ∈ refs y, [y, z].Sublist nm) (f : Nat) :
    ∀ (a b start : List String), nm = a ++ b → b.length ≤ f → (∀ x ∈ start, x ∈ b) →
    ∃ R, findAll kn refs (f + 1) start = some (.ok R) := by
  induction f with
  | zero =>
    intro a b start _ hl hs
    cases b with
    | cons _ _ => simp at hl
    | nil =>
      cases start with
      | nil => exact ⟨[], rfl⟩
      | cons x _ => exact absurd (hs x (by simp)) (by simp)
  | succ f ih =>
    intro a b start he hl hs
    unfold findAll
    refine collect_total start start ?_
    intro y hy
    have hyb := hs y hy
    have hyn : y ∈ nm := by rw [he]; simp [hyb]
    refine ⟨hk y hyn, ?_⟩
    obtain ⟨b1, b2, rfl⟩ := List.append_of_mem hyb
    refine ih (a ++ b1 ++ [y]) b2 (refs y) (by rw [he]; simp) (by simp at hl; omega) ?_
    intro z hz
    have h1 := hb y hyn z hz
    have h2 : nm = (a ++ b1) ++ y :: b2 := by rw [he]; simp
    rw [h2] at h1 hn
    exact pair_after hn h1

/-! ## Rebuilding -/

theorem lookup_of_mem {α : Type} {x : String} {c : α} (l : List (String × α))
    (hn : (l.map Prod.fst).Nodup) (h : (x, c) ∈ l) : l.lookup x = some c := by
  induction l with
  | nil => cases h
  | cons a l ih =>
    obtain ⟨y, d⟩ := a
    simp only [List.map_cons, List.nodup_cons] at hn
    rcases List.mem_cons.1 h with h' | h'
    · cases h'; simp [List.lookup]
    · have hne : x ≠ y := by
        intro e
        exact hn.1 (List.mem_map.2 ⟨(x, c), h', e⟩)
      simp only [List.lookup, beq_eq_false_iff_ne.2 hne]
      exact ih hn.2 h'

theorem mem_of_lookup {α : Type} {x : String} {c : α} (l : List (String × α))
    (h : l.lookup x = some c) : (x, c) ∈ l := by
  induction l with
  | nil => cases h
  | cons a l ih =>
    obtain ⟨y, d⟩ := a
    simp only [List.lookup] at h
    split at h
    · rename_i hb
      cases h
      rw [beq_iff_eq] at hb
      subst hb
      simp
    · exact List.mem_cons_of_mem _ (ih h)

/-- The state in the middle of rebuilding: those in `done` have been rebuilt. -/
structure Mid (defs : List (String × Comp ι V S)) (s1 t : State ι V S) (R done : List String)
    (u : State ι V S) : Prop where
  inputs : u.inputs = t.inputs
  out : ∀ n, n ∉ R → u.held n = t.held n
  dn : ∀ n ∈ done, u.held n = t.held n
  order : u.order = s1.order.filter (fun y => !done.contains y) ++ done
  refs : ∀ n x, x ∈ u.refs n ↔ (n ∉ done ∧ x ∈ s1.refs n) ∨ (x ∈ done ∧ Reads defs t x n)

theorem rebuild_one {isIn : String → Bool} {defs : List (String × Comp ι V S)}
    (hm : Math isIn defs) {s1 t u : State ι V S} (ht : Good isIn defs t) {R done : List String}
    (hu : Mid defs s1 t R done u) {x : String} {c : Comp ι V S} (hx : (x, c) ∈ defs)
    (hxd : x ∉ done) (hxR : x ∈ R)
    (hord : ∀ n, Reads defs t x n → n ∈ R → n ∈ done)
    (hord' : ∀ y ∈ done, ¬ Reads defs t y x) :
    ∃ u', add isIn x c (delete x u) = some u' ∧ Mid defs s1 t R (done ++ [x]) u' := by
  obtain ⟨pre, post, hsplit⟩ := List.append_of_mem hx
  obtain ⟨v, r, h1, h2, h3⟩ := ht.built pre x c post hsplit
  have hreads : ∀ n, Reads defs t x n ↔ n ∈ r := by
    intro n
    constructor
    · rintro ⟨c', v', r', hc', hr', hn⟩
      have e1 := lookup_of_mem defs hm.nodup hc'
      have e2 := lookup_of_mem defs hm.nodup hx
      rw [e1] at e2
      cases e2
      rw [h1] at hr'
      cases hr'
      exact hn
    · intro hn
      exact ⟨c, v, r, hx, h1, hn⟩
  have hxnames : x ∈ names defs := List.mem_map.2 ⟨(x, c), hx, rfl⟩
  have hne : ∀ n ∈ r, n ≠ x := by
    rintro n hn rfl
    rcases (h3 n hn).1 with h | h
    · rw [hm.notIn n hxnames] at h; cases h
    · have := hm.nodup
      rw [hsplit] at this
      simp only [names, List.map_append, List.map_cons] at this
      rw [List.nodup_append] at this
      exact this.2.2 n h n (by simp) rfl
  have hheld : ∀ n ∈ r, u.held n = t.held n := by
    intro n hn
    by_cases hR : n ∈ R
    · exact hu.dn n (hord n ((hreads n).2 hn) hR)
    · exact hu.out n hR
  have hrun : c.run (delete x u).inputs (delete x u).held = some (v, r) := by
    refine (hm.honest (x, c) hx).locl _ _ _ _ _ _ h1 ?_
    intro n hn
    refine ⟨by show t.inputs n = u.inputs n; rw [hu.inputs], ?_⟩
    show t.held n = setAt u.held x none n
    unfold setAt
    rw [if_neg (hne n hn), hheld n hn]
  have hkn : ∀ n ∈ r, known isIn (setAt (setAt u.held x none) x (some v)) n = true := by
    intro n hn
    have e : setAt (setAt u.held x none) x (some v) n = t.held n := by
      unfold setAt
      rw [if_neg (hne n hn), if_neg (hne n hn), hheld n hn]
    unfold known
    rw [e]
    rcases (h3 n hn).1 with h | h
    · simp [h]
    · have hnd : n ∈ names defs := by
        rw [hsplit]; simp only [names, List.map_append, List.mem_append]; exact Or.inl h
      obtain ⟨d, hd, rfl⟩ := List.mem_map.1 hnd
      obtain ⟨pre', post', hs'⟩ := List.append_of_mem hd
      obtain ⟨v', _, _, e2, _⟩ := ht.built pre' d.1 d.2 post' hs'
      simp [e2]
  refine ⟨_, by unfold add; rw [hrun], ?_⟩
  refine ⟨hu.inputs, ?_, ?_, ?_, ?_⟩
  · intro n hn
    show setAt (setAt u.held x none) x (some v) n = _
    have : n ≠ x := by rintro rfl; exact hn hxR
    unfold setAt
    rw [if_neg this, if_neg this]
    exact hu.out n hn
  · intro n hn
    show setAt (setAt u.held x none) x (some v) n = _
    unfold setAt
    by_cases hnx : n = x
    · rw [if_pos hnx, hnx, h2]
    · rw [if_neg hnx, if_neg hnx]
      refine hu.dn n ?_
      simpa [hnx] using hn
  · show u.order.filter (fun y => y ≠ x) ++ [x] = _
    rw [hu.order, List.filter_append, List.filter_filter]
    have e1 : done.filter (fun y => decide (y ≠ x)) = done := by
      rw [List.filter_eq_self]
      intro y hy
      simp only [ne_eq, decide_not, Bool.not_eq_true', decide_eq_false_iff_not]
      rintro rfl
      exact hxd hy
    rw [e1]
    have e2 : (fun a => decide (a ≠ x) && !done.contains a)
        = (fun y => !(done ++ [x]).contains y) := by
      funext y
      simp only [List.contains_eq_mem, List.mem_append, List.mem_singleton, ne_eq, decide_not,
        Bool.decide_or, Bool.not_or]
      rw [Bool.and_comm]
    rw [e2]
    simp
  · intro n y
    show y ∈ addRefs x r (known isIn (setAt (setAt u.held x none) x (some v)))
      (setAt (setAt u.refs x []) x []) n ↔ _
    rw [mem_addRefs]
    by_cases hnx : n = x
    · have e0 : setAt (setAt u.refs x []) x [] n = [] := by unfold setAt; rw [if_pos hnx]
      rw [e0]
      subst hnx
      constructor
      · rintro (⟨hr, _, _⟩ | h)
        · exact absurd rfl (hne n hr)
        · cases h
      · rintro (⟨h, _⟩ | ⟨h, hrd⟩)
        · exact absurd (by simp) h
        · exfalso
          rcases List.mem_append.1 h with h | h
          · exact hord' y h hrd
          · rw [List.mem_singleton] at h
            subst h
            exact hne y ((hreads y).1 hrd) rfl
    · have e0 : setAt (setAt u.refs x []) x [] n = u.refs n := by
        unfold setAt; rw [if_neg hnx, if_neg hnx]
      rw [e0, hu.refs n y]
      constructor
      · rintro (⟨hr, _, rfl⟩ | ⟨h, h'⟩ | ⟨h, h'⟩)
        · exact Or.inr ⟨by simp, (hreads n).2 hr⟩
        · exact Or.inl ⟨by simp [h, hnx], h'⟩
        · exact Or.inr ⟨by simp [h], h'⟩
      · rintro (⟨h, h'⟩ | ⟨h, h'⟩)
        · exact Or.inr (Or.inl ⟨fun hh => h (by simp [hh]), h'⟩)
        · rcases List.mem_append.1 h with h | h
          · exact Or.inr (Or.inr ⟨h, h'⟩)
          · rw [List.mem_singleton] at h
            subst h
            have := (hreads n).1 h'
            exact Or.inl ⟨this, hkn n this, rfl⟩

/-- `L` lists what is rebuilt in such an order that what is read comes first. -/
def Serial (defs : List (String × Comp ι V S)) (t : State ι V S) (L : List String) : Prop :=
  ∀ a x b, L = a ++ x :: b → ∀ n, Reads defs t x n → n ∈ L → n ∈ a

theorem rebuildList_mid {isIn : String → Bool} {defs : List (String × Comp ι V S)}
    (hm : Math isIn defs) {s1 t : State ι V S} (ht : Good isIn defs t) {R L : List String}
    (hL : ∀ x, x ∈ L ↔ x ∈ R) (hn : L.Nodup) (hser : Serial defs t L)
    (hLn : ∀ x ∈ L, x ∈ names defs) (xs : List String) :
    ∀ (done rest : List String) (u : State ι V S), L = done ++ xs ++ rest →
    Mid defs s1 t R done u →
    ∃ u', rebuildList isIn defs xs u = (u', .returned) ∧ Mid defs s1 t R (done ++ xs) u' := by
  induction xs with
  | nil => intro done rest u _ hu; exact ⟨u, rfl, by simpa using hu⟩
  | cons x xs ih =>
    intro done rest u hsp hu
    have hsp' : L = done ++ x :: (xs ++ rest) := by rw [hsp]; simp
    have hxL : x ∈ L := by rw [hsp']; simp
    obtain ⟨d, hd, hdx⟩ := List.mem_map.1 (hLn x hxL)
    obtain ⟨x', c⟩ := d
    dsimp only at hdx
    subst hdx
    have hxd : x' ∉ done := by
      rw [hsp'] at hn
      rw [List.nodup_append] at hn
      intro h
      exact hn.2.2 x' h x' (by simp) rfl
    have hord' : ∀ y ∈ done, ¬ Reads defs t y x' := by
      intro y hy hr
      obtain ⟨d1, d2, rfl⟩ := List.append_of_mem hy
      have h1 := hser d1 y (d2 ++ x' :: (xs ++ rest)) (by rw [hsp']; simp) x' hr hxL
      exact hxd (by simp [h1])
    obtain ⟨u1, ha, hu1⟩ := rebuild_one hm ht hu hd hxd ((hL x').1 hxL)
      (fun n hr hR => hser done x' (xs ++ rest) hsp' n hr ((hL n).2 hR)) hord'
    obtain ⟨u', h1, h2⟩ := ih (done ++ [x']) rest u1 (by rw [hsp]; simp) hu1
    refine ⟨u', ?_, by simpa using h2⟩
    unfold rebuildList
    rw [lookup_of_mem defs hm.nodup hd]
    dsimp only
    rw [ha]
    exact h1

/-- The order in which things are rebuilt: group by group, within a group in the order of the dataset
at the start. -/
def rebuildOrder (defs : List (String × Comp ι V S)) (R order : List String) (gs : List Nat) :
    List String :=
  gs.flatMap (fun g => order.filter (selected defs R g))

theorem rebuildGroups_mid {isIn : String → Bool} {defs : List (String × Comp ι V S)}
    (hm : Math isIn defs) {s1 t : State ι V S} (ht : Good isIn defs t) {R L : List String}
    (hL : ∀ x, x ∈ L ↔ x ∈ R) (hn : L.Nodup) (hser : Serial defs t L)
    (hLn : ∀ x ∈ L, x ∈ names defs) (gs : List Nat) :
    ∀ (gs0 : List Nat) (u : State ι V S), (gs0 ++ gs).Nodup →
    L = rebuildOrder defs R s1.order (gs0 ++ gs) →
    Mid defs s1 t R (rebuildOrder defs R s1.order gs0) u →
    ∃ u', rebuildGroups isIn defs R gs u = (u', .returned) ∧ Mid defs s1 t R L u' := by
  induction gs with
  | nil => intro gs0 u _ hLe hu; exact ⟨u, rfl, by rw [hLe]; simpa using hu⟩
  | cons g gs ih =>
    intro gs0 u hgn hLe hu
    have hg : g ∉ gs0 := by
      rw [List.nodup_append] at hgn
      intro h
      exact hgn.2.2 g h g (by simp) rfl
    have hother : ∀ y ∈ rebuildOrder defs R s1.order gs0, selected defs R g y = false := by
      intro y hy
      obtain ⟨g', hg', hy'⟩ := List.mem_flatMap.1 hy
      have h1 := (List.mem_filter.1 hy').2
      unfold selected at h1 ⊢
      rw [Bool.and_eq_true, beq_iff_eq] at h1
      rw [h1.1]
      have : g' ≠ g := by rintro rfl; exact hg hg'
      simp [this]
    have hlist : u.order.filter (selected defs R g) = s1.order.filter (selected defs R g) := by
      rw [hu.order, List.filter_append, List.filter_filter]
      have e1 : (rebuildOrder defs R s1.order gs0).filter (selected defs R g) = [] := by
        rw [List.filter_eq_nil_iff]
        intro y hy
        rw [hother y hy]
        simp
      rw [e1, List.append_nil]
      apply List.filter_congr
      intro y _
      by_cases hy : y ∈ rebuildOrder defs R s1.order gs0
      · simp [hother y hy]
      · simp [hy]
    have hsp : L = rebuildOrder defs R s1.order gs0 ++ s1.order.filter (selected defs R g)
        ++ rebuildOrder defs R s1.order gs := by
      rw [hLe]
      simp [rebuildOrder]
    obtain ⟨u1, h1, hu1⟩ := rebuildList_mid hm ht hL hn hser hLn
      (s1.order.filter (selected defs R g)) _ _ u hsp hu
    have e2 : rebuildOrder defs R s1.order gs0 ++ s1.order.filter (selected defs R g)
        = rebuildOrder defs R s1.order (gs0 ++ [g]) := by
      simp [rebuildOrder]
    rw [e2] at hu1
    obtain ⟨u', h2, hu'⟩ := ih (gs0 ++ [g]) u1 (by simpa using hgn) (by rw [hLe]; simp) hu1
    refine ⟨u', ?_, hu'⟩
    unfold rebuildGroups
    rw [hlist, h1]
    exact h2

/-- `n` comes before `x` when everything is rebuilt: in an earlier group, or in the same group and
before it in the dataset. -/
def Precedes (defs : List (String × Comp ι V S)) (order : List String) (n x : String) : Prop :=
  ∃ cn cx, (n, cn) ∈ defs ∧ (x, cx) ∈ defs ∧
    (cn.group < cx.group ∨ (cn.group = cx.group ∧ [n, x].Sublist order))

theorem flatMap_pair {f : Nat → List String} {n x : String} {g1 g2 : Nat} (hlt : g1 < g2)
    (hn : n ∈ f g1) (hx : x ∈ f g2) (gs : List Nat) (hs : gs.Pairwise (· < ·)) (h1 : g1 ∈ gs)
    (h2 : g2 ∈ gs) : [n, x].Sublist (gs.flatMap f) := by
  induction gs with
  | nil => cases h1
  | cons g gs ih =>
    rw [List.pairwise_cons] at hs
    rw [List.flatMap_cons]
    rcases List.mem_cons.1 h1 with rfl | h1
    · have h2' : g2 ∈ gs := by
        rcases List.mem_cons.1 h2 with h | h
        · omega
        · exact h
      exact List.Sublist.append (List.singleton_sublist.2 hn)
        (List.singleton_sublist.2 (List.mem_flatMap.2 ⟨g2, h2', hx⟩))
    · have h2' : g2 ∈ gs := by
        rcases List.mem_cons.1 h2 with h | h
        · have := hs.1 g1 h1; omega
        · exact h
      exact (ih hs.2 h1 h2').trans (List.sublist_append_right ..)

theorem sublist_flatMap {f : Nat → List String} {g : Nat} {gs : List Nat} (h : g ∈ gs) :
    (f g).Sublist (gs.flatMap f) := by
  obtain ⟨a, b, rfl⟩ := List.append_of_mem h
  rw [List.flatMap_append, List.flatMap_cons]
  exact (List.sublist_append_left ..).trans (List.sublist_append_right ..)

theorem pair_before {a b : List String} {n x : String} (hn : (a ++ x :: b).Nodup)
    (h : [n, x].Sublist (a ++ x :: b)) : n ∈ a := by
  induction a with
  | nil =>
    have hx := (List.nodup_cons.1 hn).1
    exfalso
    cases h with
    | cons _ h => exact hx (h.subset (by simp))
    | cons_cons _ h => exact hx (h.subset (by simp))
  | cons c a ih =>
    simp only [List.cons_append] at hn h
    rw [List.nodup_cons] at hn
    cases h with
    | cons _ h => exact List.mem_cons_of_mem _ (ih hn.2 h)
    | cons_cons _ h => simp

theorem rebuildOrder_mem {defs : List (String × Comp ι V S)} {R order : List String}
    {x : String} {gs : List Nat} : x ∈ rebuildOrder defs R order gs ↔
    x ∈ order ∧ x ∈ R ∧ ∃ c, defs.lookup x = some c ∧ c.group ∈ gs := by
  unfold rebuildOrder
  rw [List.mem_flatMap]
  constructor
  · rintro ⟨g, hg, hx⟩
    obtain ⟨h1, h2⟩ := List.mem_filter.1 hx
    unfold selected at h2
    rw [Bool.and_eq_true, beq_iff_eq] at h2
    cases hc : defs.lookup x with
    | none => rw [hc] at h2; cases h2.1
    | some c =>
      rw [hc] at h2
      have := Option.some.inj h2.1
      exact ⟨h1, by simpa using h2.2, c, rfl, by rw [this]; exact hg⟩
  · rintro ⟨h1, h2, c, h3, h4⟩
    refine ⟨c.group, h4, List.mem_filter.2 ⟨h1, ?_⟩⟩
    unfold selected
    rw [h3]
    simp [h2]

theorem rebuildOrder_nodup {defs : List (String × Comp ι V S)} {R order : List String}
    (ho : order.Nodup) (gs : List Nat) (hg : gs.Nodup) : (rebuildOrder defs R order gs).Nodup := by
  induction gs with
  | nil => exact List.nodup_nil
  | cons g gs ih =>
    rw [List.nodup_cons] at hg
    have e : rebuildOrder defs R order (g :: gs)
        = order.filter (selected defs R g) ++ rebuildOrder defs R order gs := rfl
    rw [e, List.nodup_append]
    refine ⟨ho.sublist List.filter_sublist, ih hg.2, ?_⟩
    rintro a ha b hb rfl
    have h1 := (List.mem_filter.1 ha).2
    obtain ⟨_, _, c, h3, h4⟩ := rebuildOrder_mem.1 hb
    unfold selected at h1
    rw [Bool.and_eq_true, beq_iff_eq, h3] at h1
    have := Option.some.inj h1.1
    exact hg.1 (this ▸ h4)

theorem serial_of_precedes {isIn : String → Bool} {defs : List (String × Comp ι V S)}
    (hm : Math isIn defs) {t : State ι V S} {R order : List String} (ho : order.Nodup)
    (h : ∀ x n, Reads defs t x n → x ∈ R → n ∈ R → Precedes defs order n x) :
    Serial defs t (rebuildOrder defs R order groups) := by
  intro a x b hsp n hr hnL
  have hnd := rebuildOrder_nodup (defs := defs) (R := R) ho groups (by decide)
  have hxL : x ∈ rebuildOrder defs R order groups := by rw [hsp]; simp
  obtain ⟨x1, x2, x3, x4, x5⟩ := rebuildOrder_mem.1 hxL
  obtain ⟨n1, n2, n3, n4, n5⟩ := rebuildOrder_mem.1 hnL
  obtain ⟨cn, cx, hcn, hcx, hp⟩ := h x n hr x2 n2
  have ecn := lookup_of_mem defs hm.nodup hcn
  have ecx := lookup_of_mem defs hm.nodup hcx
  have e1 : cn = n3 := Option.some.inj (ecn.symm.trans n4)
  subst e1
  have e2 : cx = x3 := Option.some.inj (ecx.symm.trans x4)
  subst e2
  have hsel : ∀ y c, y ∈ R → defs.lookup y = some c → selected defs R c.group y = true := by
    intro y c h1 h2
    unfold selected
    rw [h2]
    simp [h1]
  have hsub : [n, x].Sublist (rebuildOrder defs R order groups) := by
    rcases hp with hlt | ⟨heq, hs⟩
    · exact flatMap_pair hlt (List.mem_filter.2 ⟨n1, hsel n cn n2 ecn⟩)
        (List.mem_filter.2 ⟨x1, hsel x cx x2 ecx⟩) groups (by decide) n5 x5
    · have h1 : [n, x].Sublist (order.filter (selected defs R cx.group)) := by
        have := hs.filter (selected defs R cx.group)
        have e : [n, x].filter (selected defs R cx.group) = [n, x] := by
          rw [List.filter_eq_self]
          intro y hy
          simp only [List.mem_cons, List.not_mem_nil, or_false] at hy
          rcases hy with rfl | rfl
          · rw [← heq]; exact hsel _ cn n2 ecn
          · exact hsel _ cx x2 ecx
        rwa [e] at this
      exact h1.trans (sublist_flatMap (f := fun g => order.filter (selected defs R g)) x5)
  rw [hsp] at hsub hnd
  exact pair_before hnd hsub

/-- References name exactly those that read. -/
def Exact (defs : List (String × Comp ι V S)) (s : State ι V S) : Prop :=
  ∀ n x, x ∈ s.refs n ↔ Reads defs s x n

/-- In the dataset, whatever is read by a component of its own group comes first. -/
def Tidy (defs : List (String × Comp ι V S)) (s : State ι V S) : Prop :=
  ∀ n x, x ∈ s.refs n → n ∈ names defs → Precedes defs s.order n x

theorem names_le {isIn : String → Bool} {defs : List (String × Comp ι V S)}
    (hm : Math isIn defs) {n x : String} (h : [n, x].Sublist (names defs)) :
    ∃ cn cx, (n, cn) ∈ defs ∧ (x, cx) ∈ defs ∧ cn.group ≤ cx.group := by
  obtain ⟨l', h1, h2⟩ := List.sublist_map_iff.1 h
  match l', h2 with
  | [(a, ca), (b, cb)], h2 =>
    simp only [List.map_cons, List.map_nil, List.cons.injEq, and_true] at h2
    obtain ⟨rfl, rfl⟩ := h2
    refine ⟨ca, cb, h1.subset (by simp), h1.subset (by simp), ?_⟩
    have := hm.grouped.sublist h1
    rw [List.pairwise_cons] at this
    exact this.1 _ (List.mem_singleton.2 rfl)

/-- The state in which the search for references starts: the input has its new values. -/
def written (s : State ι V S) (p : String) (new : ι → Option V) : State ι V S :=
  { s with inputs := setAt s.inputs p (merge new (s.inputs p)), refs := setAt s.refs p [] }

theorem good_isSome {isIn : String → Bool} {defs : List (String × Comp ι V S)}
    {s : State ι V S} (hs : Good isIn defs s) {x : String} (hx : x ∈ names defs) :
    (s.held x).isSome = true := by
  obtain ⟨d, hd, rfl⟩ := List.mem_map.1 hx
  obtain ⟨pre', post', hs'⟩ := List.append_of_mem hd
  obtain ⟨v', _, _, e2, _⟩ := hs.built pre' d.1 d.2 post' hs'
  simp [e2]

theorem good_reads {isIn : String → Bool} {defs : List (String × Comp ι V S)} {s : State ι V S} (hs : Good isIn defs s) {x n : String}
    (h : Reads defs s x n) : x ∈ s.refs n := by
  obtain ⟨c, v, r, h1, h2, h3⟩ := h
  obtain ⟨pre, post, hsp⟩ := List.append_of_mem h1
  obtain ⟨v', r', e1, _, e3⟩ := hs.built pre x c post hsp
  rw [h2] at e1
  cases e1
  exact (e3 n h3).2

/-- What is not reached keeps its array and what it reads. -/
theorem outside_same {isIn : String → Bool} {defs : List (String × Comp ι V S)}
    (hm : Math isIn defs) {s t : State ι V S} {p : String} {new : ι → Option V}
    (hs : Good isIn defs s) (ht : Good isIn defs t) (hp : isIn p = true)
    (hi : t.inputs = (written s p new).inputs) {R : List String}
    (hR1 : ∀ x ∈ s.refs p, x ∈ R)
    (hR2 : ∀ y ∈ R, ∀ x ∈ (written s p new).refs y, x ∈ R) :
    ∀ x c, (x, c) ∈ defs → x ∉ R → t.held x = s.held x ∧
      c.run t.inputs t.held = c.run s.inputs s.held := by
  have key : ∀ (pre post : List (String × Comp ι V S)), defs = pre ++ post →
      ∀ x c, (x, c) ∈ pre → x ∉ R → t.held x = s.held x ∧
        c.run t.inputs t.held = c.run s.inputs s.held := by
    intro pre
    induction pre using List.reverseRecOn with
    | nil => intro post _ x c hx; cases hx
    | append_singleton pre xc ih =>
      obtain ⟨x, c⟩ := xc
      intro post heq y d hy hyR
      have heq' : defs = pre ++ (x, c) :: post := by rw [heq]; simp
      have ih' := ih ((x, c) :: post) heq'
      rcases List.mem_append.1 hy with hy | hy
      · exact ih' y d hy hyR
      · rw [List.mem_singleton] at hy
        have e1 : y = x := congrArg Prod.fst hy
        have e2 : d = c := congrArg Prod.snd hy
        subst e1
        subst e2
        obtain ⟨v, r, a1, a2, a3⟩ := hs.built pre y d post heq'
        obtain ⟨v', r', b1, b2, _⟩ := ht.built pre y d post heq'
        have hc := hm.honest (y, d) (by rw [heq']; simp)
        have hrun := hc.locl _ t.inputs _ t.held _ _ a1 (by
          intro n hn
          have hnp : n ≠ p := by
            rintro rfl
            exact hyR (hR1 y (a3 n hn).2)
          refine ⟨by rw [hi]; unfold written setAt; dsimp only; rw [if_neg hnp], ?_⟩
          rcases (a3 n hn).1 with h | h
          · have hno : n ∉ names defs := fun hh => by rw [hm.notIn n hh] at h; cases h
            rw [hs.only n hno, ht.only n hno]
          · obtain ⟨e, he, rfl⟩ := List.mem_map.1 h
            refine (ih' e.1 e.2 he ?_).1.symm
            intro heR
            refine hyR (hR2 e.1 heR y ?_)
            have : (written s p new).refs e.1 = s.refs e.1 := by
              unfold written setAt; dsimp only; rw [if_neg hnp]
            rw [this]
            exact (a3 e.1 hn).2)
        rw [b1] at hrun
        cases hrun
        exact ⟨by rw [a2, b2], by rw [a1, b1]⟩
  intro x c hx hxR
  exact key defs [] (by simp) x c hx hxR

theorem mem_pair_cases {a : List String} {n x : String} (L : List String) (hn : n ∈ a)
    (hx : x ∈ L) : [n, x].Sublist (a ++ L) :=
  List.Sublist.append (List.singleton_sublist.2 hn) (List.singleton_sublist.2 hx)

/-- One update on a good backend. -/
theorem update_step {isIn : String → Bool} {defs : List (String × Comp ι V S)}
    (hm : Math isIn defs) {s t : State ι V S} {p : String} {new : ι → Option V}
    (hs : Good isIn defs s) (hp : isIn p = true)
    (ht : scratch isIn defs (setAt s.inputs p (merge new (s.inputs p))) = some t)
    {fuel : Nat} (hf : defs.length < fuel)
    (hord : ∀ x n, Reads defs t x n → x ∈ names defs → n ∈ names defs →
      (∃ y ∈ s.refs p, Reach s.refs y x) → (∃ y ∈ s.refs p, Reach s.refs y n) →
      Precedes defs s.order n x) :
    ∃ s' L, updateRebuild isIn defs fuel s p new = (s', .returned) ∧
      s'.held = t.held ∧ s'.inputs = t.inputs ∧ Good isIn defs s' ∧
      s'.order = s.order.filter (fun y => !L.contains y) ++ L ∧ L.Nodup ∧
      (∀ x, x ∈ L ↔ ∃ y ∈ s.refs p, Reach s.refs y x) ∧ Serial defs t L ∧
      (∀ n x, x ∈ s'.refs n ↔ (n ∉ L ∧ n ≠ p ∧ x ∈ s.refs n) ∨ (x ∈ L ∧ Reads defs t x n)) ∧
      (∀ x c, (x, c) ∈ defs → x ∉ L → c.run t.inputs t.held = c.run s.inputs s.held) := by
  obtain ⟨htg, _, hti⟩ := scratch_good hm ht
  have hpn : p ∉ names defs := fun h => by rw [hm.notIn p h] at hp; cases hp
  have hwr : ∀ n, n ≠ p → (written s p new).refs n = s.refs n := by
    intro n hn; unfold written setAt; dsimp only; rw [if_neg hn]
  have hwp : (written s p new).refs p = [] := by
    unfold written setAt; dsimp only; rw [if_pos rfl]
  -- the search
  obtain ⟨R, hR⟩ := findAll_total (kn := known isIn (written s p new).held)
    (refs := (written s p new).refs) (nm := names defs) hm.nodup
    (fun x hx => by unfold known; simp only [Bool.or_eq_true]; exact Or.inr (good_isSome hs hx))
    (fun y hy z hz => by
      have hyp : y ≠ p := by rintro rfl; exact hpn hy
      rw [hwr y hyp] at hz
      rcases (hs.back y z hz).2 with h | h
      · rw [hm.notIn y hy] at h; cases h
      · exact h) (fuel - 1) [] (names defs) (s.refs p) (by simp) (by simp [names]; omega)
    (fun x hx => (hs.back p x hx).1)
  have hf1 : fuel - 1 + 1 = fuel := by omega
  rw [hf1] at hR
  obtain ⟨hreach', hknown⟩ := findAll_reach _ _ _ hR
  -- references from components do not pass through `p`
  have hback' : ∀ y x, Reach s.refs y x → y ∈ names defs →
      x ∈ names defs ∧ Reach (written s p new).refs y x := by
    intro y x h
    induction h with
    | here z => intro hy; exact ⟨hy, .here z⟩
    | step hm1 _ ih =>
      intro hy
      have := (hs.back _ _ hm1).1
      obtain ⟨i1, i2⟩ := ih this
      refine ⟨i1, .step ?_ i2⟩
      rw [hwr _ (by rintro rfl; exact hpn hy)]
      exact hm1
  have hfwd' : ∀ y x, Reach (written s p new).refs y x → Reach s.refs y x := by
    intro y x h
    induction h with
    | here z => exact .here z
    | @step a b c hm1 _ ih =>
      refine .step ?_ ih
      by_cases ha : a = p
      · subst ha; rw [hwp] at hm1; cases hm1
      · rwa [hwr a ha] at hm1
  have hreach : ∀ x, x ∈ R ↔ ∃ y ∈ s.refs p, Reach s.refs y x := by
    intro x
    rw [hreach' x]
    constructor
    · rintro ⟨y, hy, h⟩; exact ⟨y, hy, hfwd' y x h⟩
    · rintro ⟨y, hy, h⟩; exact ⟨y, hy, (hback' y x h (hs.back p y hy).1).2⟩
  have hRn : ∀ y ∈ R, y ∈ names defs := by
    intro x hx
    obtain ⟨y, hy, h⟩ := (hreach x).1 hx
    exact (hback' y x h (hs.back p y hy).1).1
  have hR1 : ∀ x ∈ s.refs p, x ∈ R := fun x hx => (hreach x).2 ⟨x, hx, .here x⟩
  have hR2 : ∀ y ∈ R, ∀ x ∈ (written s p new).refs y, x ∈ R := by
    intro y hy x hx
    obtain ⟨z, hz, h⟩ := (hreach' y).1 hy
    refine (hreach' x).2 ⟨z, hz, ?_⟩
    clear hz hy
    induction h with
    | here z => exact .step hx (.here x)
    | step hm1 _ ih => exact .step hm1 (ih hx)
  have hsame := outside_same hm hs htg hp (new := new) (by rw [hti]; rfl) hR1 hR2
  -- the order
  have hordn : s.order.Nodup := hs.order.nodup_iff.2 hm.nodup
  have hser : Serial defs t (rebuildOrder defs R s.order groups) :=
    serial_of_precedes hm hordn (fun x n hr hx hn =>
      hord x n hr (hRn x hx) (hRn n hn) ((hreach x).1 hx) ((hreach n).1 hn))
  have hL : ∀ x, x ∈ rebuildOrder defs R s.order groups ↔ x ∈ R := by
    intro x
    rw [rebuildOrder_mem]
    constructor
    · exact fun h => h.2.1
    · intro hx
      have hxn := hRn x hx
      refine ⟨hs.order.mem_iff.2 hxn, hx, ?_⟩
      obtain ⟨d, hd, rfl⟩ := List.mem_map.1 hxn
      exact ⟨d.2, lookup_of_mem defs hm.nodup hd, hm.inGroups d hd⟩
  have hLnd : (rebuildOrder defs R s.order groups).Nodup :=
    rebuildOrder_nodup hordn groups (by decide)
  have hout0 : ∀ n, n ∉ R → s.held n = t.held n := by
    intro n hn
    by_cases hnn : n ∈ names defs
    · obtain ⟨d, hd, rfl⟩ := List.mem_map.1 hnn
      exact (hsame d.1 d.2 hd hn).1.symm
    · rw [hs.only n hnn, htg.only n hnn]
  have hmid0 : Mid defs (written s p new) t R (rebuildOrder defs R (written s p new).order [])
      (written s p new) := by
    refine ⟨hti.symm, hout0, ?_, ?_, ?_⟩
    · intro n hn; cases hn
    · show s.order = _
      simp only [rebuildOrder, List.flatMap_nil, List.append_nil, written]
      exact (List.filter_eq_self.2 (fun _ _ => rfl)).symm
    · intro n x
      simp [rebuildOrder]
  obtain ⟨s', hrun, hmid⟩ := rebuildGroups_mid (s1 := written s p new) hm htg hL hLnd hser
    (fun x hx => hRn x ((hL x).1 hx)) groups [] (written s p new) (by decide) rfl hmid0
  generalize hLe : rebuildOrder defs R s.order groups = L at *
  have hheld : s'.held = t.held := by
    funext n
    by_cases hn : n ∈ R
    · exact hmid.dn n ((hL n).2 hn)
    · exact hmid.out n hn
  have hrefs : ∀ n x, x ∈ s'.refs n ↔
      (n ∉ L ∧ n ≠ p ∧ x ∈ s.refs n) ∨ (x ∈ L ∧ Reads defs t x n) := by
    intro n x
    rw [hmid.refs n x]
    by_cases hnp : n = p
    · subst hnp
      rw [hwp]
      simp
    · rw [hwr n hnp]
      simp [hnp]
  have hord2 : s'.order = s.order.filter (fun y => !L.contains y) ++ L := hmid.order
  have houtreads : ∀ x n, Reads defs t x n → x ∉ L → n ∉ L ∧ n ≠ p ∧ x ∈ s.refs n := by
    intro x n hr hx
    have hxR : x ∉ R := fun h => hx ((hL x).2 h)
    obtain ⟨c, v, r, h1, h2, h3⟩ := hr
    rw [(hsame x c h1 hxR).2] at h2
    have hmem := good_reads hs ⟨c, v, r, h1, h2, h3⟩
    have hnp : n ≠ p := by rintro rfl; exact hxR (hR1 x hmem)
    refine ⟨?_, hnp, hmem⟩
    intro hnL
    exact hxR (hR2 n ((hL n).1 hnL) x (by rw [hwr n hnp]; exact hmem))
  refine ⟨s', L, ?_, hheld, hmid.inputs, ?_, hord2, hLnd, fun x => (hL x).trans (hreach x), hser,
    hrefs, fun x c hx hxL => (hsame x c hx (fun h => hxL ((hL x).2 h))).2⟩
  · show (match findAll (known isIn (written s p new).held) (written s p new).refs fuel (s.refs p) with
      | none => (written s p new, Result.diverged)
      | some (.error _) => (written s p new, .raised)
      | some (.ok R) => rebuildGroups isIn defs R groups (written s p new)) = _
    rw [hR]
    exact hrun
  · refine ⟨?_, ?_, ?_, ?_⟩
    · intro pre x c post hsp
      obtain ⟨v, r, b1, b2, b3⟩ := htg.built pre x c post hsp
      refine ⟨v, r, by rw [hheld, hmid.inputs]; exact b1, by rw [hheld]; exact b2, ?_⟩
      intro n hn
      refine ⟨(b3 n hn).1, (hrefs n x).2 ?_⟩
      have hr : Reads defs t x n := ⟨c, v, r, by rw [hsp]; simp, b1, hn⟩
      by_cases hx : x ∈ L
      · exact Or.inr ⟨hx, hr⟩
      · exact Or.inl (houtreads x n hr hx)
    · intro n hn
      rw [hheld]
      exact htg.only n hn
    · rw [hord2]
      have h1 : (s.order.filter (fun y => L.contains y)).Perm L := by
        refine (List.perm_ext_iff_of_nodup (hordn.sublist List.filter_sublist) hLnd).2 ?_
        intro x
        rw [List.mem_filter]
        constructor
        · exact fun h => by simpa using h.2
        · intro hx
          exact ⟨hs.order.mem_iff.2 (hRn x ((hL x).1 hx)), by simpa using hx⟩
      have h2 := List.filter_append_perm (fun y => !L.contains y) s.order
      simp only [Bool.not_not] at h2
      exact ((h1.symm.append_left _).trans h2).trans hs.order
    · intro n x hx
      rcases (hrefs n x).1 hx with ⟨_, _, h⟩ | ⟨_, h⟩
      · exact hs.back n x h
      · exact htg.back n x (good_reads htg h)

/-! ## Fresh builds -/

theorem add_exact {isIn : String → Bool} {done : List (String × Comp ι V S)} {s s' : State ι V S}
    {x : String} {c : Comp ι V S} (hg : Good isIn done s)
    (hh : ∀ d ∈ done ++ [(x, c)], Honest isIn d.2) (hx : x ∉ names done) (hi : isIn x = false)
    (he : ∀ n y, y ∈ s.refs n → Reads done s y n)
    (h : add isIn x c s = some s') :
    ∀ n y, y ∈ s'.refs n → Reads (done ++ [(x, c)]) s' y n := by
  unfold add at h
  cases hr : c.run s.inputs s.held with
  | none => rw [hr] at h; cases h
  | some vr =>
    obtain ⟨v, r⟩ := vr
    rw [hr] at h
    dsimp only at h
    have hs' := Option.some.inj h
    subst hs'
    have hagree : ∀ n, n ≠ x → setAt s.held x (some v) n = s.held n := by
      intro n hn
      unfold setAt
      rw [if_neg hn]
    intro n y hy
    dsimp only at hy
    rcases mem_addRefs.1 hy with ⟨h1, _, rfl⟩ | h1
    · have hc := hh (y, c) (by simp)
      refine ⟨c, v, r, by simp, ?_, h1⟩
      refine hc.locl _ _ _ _ _ _ hr (fun m hm => ⟨rfl, (hagree m ?_).symm⟩)
      rintro rfl
      rcases hc.present _ _ _ _ hr m hm with h | h
      · rw [hi] at h; cases h
      · rw [hg.only m hx] at h; cases h
    · unfold setAt at h1
      split at h1
      · cases h1
      · obtain ⟨d, v', r', e1, e2, e3⟩ := he n y h1
        refine ⟨d, v', r', by simp [e1], ?_, e3⟩
        obtain ⟨pre, post, hsp⟩ := List.append_of_mem e1
        obtain ⟨v2, r2, b1, _, b3⟩ := hg.built pre y d post hsp
        rw [e2] at b1
        cases b1
        refine (hh (y, d) (by simp [e1])).locl _ _ _ _ _ _ e2 (fun m hm => ⟨rfl, (hagree m ?_).symm⟩)
        rintro rfl
        rcases (b3 m hm).1 with h | h
        · rw [hi] at h; cases h
        · exact hx (by rw [hsp]; simp only [names, List.map_append, List.mem_append]; exact Or.inl h)

theorem addAll_exact {isIn : String → Bool} (todo : List (String × Comp ι V S)) :
    ∀ (done : List (String × Comp ι V S)) (s s' : State ι V S),
    Good isIn done s → s.order = names done → (∀ d ∈ done ++ todo, Honest isIn d.2) →
    (names (done ++ todo)).Nodup → (∀ x ∈ names (done ++ todo), isIn x = false) →
    (∀ n y, y ∈ s.refs n → Reads done s y n) →
    addAll isIn todo s = some s' → ∀ n y, y ∈ s'.refs n → Reads (done ++ todo) s' y n := by
  induction todo with
  | nil =>
    intro done s s' _ _ _ _ _ he h
    cases h
    simpa using he
  | cons xc r ih =>
    obtain ⟨x, c⟩ := xc
    intro done s s' hg ho hh hn hi he h
    unfold addAll at h
    cases ha : add isIn x c s with
    | none => rw [ha] at h; cases h
    | some s1 =>
      rw [ha] at h
      dsimp only at h
      have hcat : done ++ (x, c) :: r = (done ++ [(x, c)]) ++ r := by simp
      have hx : x ∉ names done := by
        intro hm
        simp only [names, List.map_append, List.map_cons] at hn
        rw [List.nodup_append] at hn
        exact hn.2.2 x hm x (by simp) rfl
      have hh' : ∀ d ∈ done ++ [(x, c)], Honest isIn d.2 := fun d hd =>
        hh d (by rw [hcat]; simp only [List.mem_append] at hd ⊢; exact Or.inl hd)
      have hix : isIn x = false := hi x (by simp [names])
      obtain ⟨g1, o1, _⟩ := add_good hg ho hh' hx hix (fun y hy => hi y (by
        simp only [names, List.map_append, List.mem_append]; exact Or.inl hy)) ha
      have e1 := add_exact hg hh' hx hix he ha
      rw [hcat] at hh hn hi ⊢
      exact ih (done ++ [(x, c)]) s1 s' g1 o1 hh hn hi e1 h

theorem scratch_exact {isIn : String → Bool} {defs : List (String × Comp ι V S)}
    (hm : Math isIn defs) {i : Inputs ι V} {t : State ι V S} (h : scratch isIn defs i = some t) :
    Exact defs t := by
  intro n x
  constructor
  · have := addAll_exact (isIn := isIn) defs [] ⟨i, [], fun _ => none, fun _ => []⟩ t
      ⟨by intro pre x c post h; exact absurd h (by simp), fun _ _ => rfl, by simp [names],
        by intro n x h; cases h⟩ rfl
      (by simpa using hm.honest) (by simpa using hm.nodup) (by simpa using hm.notIn)
      (by intro n y h; cases h) h n x
    simpa using this
  · exact good_reads (scratch_good hm h).1

theorem precedes_of_back {isIn : String → Bool} {defs : List (String × Comp ι V S)}
    (hm : Math isIn defs) {t : State ι V S} (ht : Good isIn defs t) {n x : String}
    (hx : x ∈ t.refs n) (hn : n ∈ names defs) : Precedes defs (names defs) n x := by
  rcases (ht.back n x hx).2 with h | h
  · rw [hm.notIn n hn] at h; cases h
  · obtain ⟨cn, cx, h1, h2, h3⟩ := names_le hm h
    refine ⟨cn, cx, h1, h2, ?_⟩
    rcases Nat.lt_or_eq_of_le h3 with h3 | h3
    · exact Or.inl h3
    · exact Or.inr ⟨h3, h⟩

theorem scratch_tidy {isIn : String → Bool} {defs : List (String × Comp ι V S)}
    (hm : Math isIn defs) {i : Inputs ι V} {t : State ι V S} (h : scratch isIn defs i = some t) :
    Tidy defs t := by
  obtain ⟨h1, h2, _⟩ := scratch_good hm h
  intro n x hx hn
  rw [h2]
  exact precedes_of_back hm h1 hx hn

/-! ## Histories -/

theorem static_reads {isIn : String → Bool} {defs : List (String × Comp ι V S)}
    (hst : Static defs) {s t : State ι V S} (hs : Good isIn defs s) {x n : String}
    (h : Reads defs t x n) : Reads defs s x n := by
  obtain ⟨c, v, r, h1, h2, h3⟩ := h
  obtain ⟨pre, post, hsp⟩ := List.append_of_mem h1
  obtain ⟨v', r', e1, _, _⟩ := hs.built pre x c post hsp
  exact ⟨c, v', r', h1, e1, (hst _ h1 _ _ _ _ _ _ _ _ h2 e1 n).1 h3⟩

/-- What a rebuild leaves behind. -/
structure Fine (isIn : String → Bool) (defs : List (String × Comp ι V S)) (s : State ι V S) : Prop where
  good : Good isIn defs s
  exact : Exact defs s
  tidy : Tidy defs s

theorem scratch_fine {isIn : String → Bool} {defs : List (String × Comp ι V S)}
    (hm : Math isIn defs) {i : Inputs ι V} {t : State ι V S} (h : scratch isIn defs i = some t) :
    Fine isIn defs t :=
  ⟨(scratch_good hm h).1, scratch_exact hm h, scratch_tidy hm h⟩

theorem precedes_shift {isIn : String → Bool} {defs : List (String × Comp ι V S)}
    (hm : Math isIn defs) {n x : String} {order : List String}
    (h : [n, x].Sublist (names defs)) (ho : [n, x].Sublist order) : Precedes defs order n x := by
  obtain ⟨cn, cx, h1, h2, h3⟩ := names_le hm h
  refine ⟨cn, cx, h1, h2, ?_⟩
  rcases Nat.lt_or_eq_of_le h3 with h3 | h3
  · exact Or.inl h3
  · exact Or.inr ⟨h3, ho⟩

theorem fine_step {isIn : String → Bool} {defs : List (String × Comp ι V S)}
    (hm : Math isIn defs) (hst : Static defs) {s t : State ι V S} {p : String} {new : ι → Option V}
    (hs : Fine isIn defs s) (hp : isIn p = true)
    (ht : scratch isIn defs (setAt s.inputs p (merge new (s.inputs p))) = some t)
    {fuel : Nat} (hf : defs.length < fuel) :
    ∃ s', updateRebuild isIn defs fuel s p new = (s', .returned) ∧
      s'.held = t.held ∧ s'.inputs = t.inputs ∧ Fine isIn defs s' := by
  obtain ⟨htg, _, hti⟩ := scratch_good hm ht
  obtain ⟨s', L, h1, h2, h3, h4, h5, h6, h7, h8, h9, h10⟩ := update_step hm hs.good hp ht hf
    (fun x n hr _ hn _ _ => hs.tidy n x (good_reads hs.good (static_reads hst hs.good hr)) hn)
  have hreads : ∀ x n, Reads defs s' x n ↔ Reads defs t x n := by
    intro x n; unfold Reads; rw [h2, h3]
  have hLcl : ∀ n ∈ L, ∀ x ∈ s.refs n, x ∈ L := by
    intro n hn x hx
    obtain ⟨y, hy, hr⟩ := (h7 n).1 hn
    refine (h7 x).2 ⟨y, hy, ?_⟩
    clear hy hn
    induction hr with
    | here z => exact .step hx (.here x)
    | step hm1 _ ih => exact .step hm1 (ih hx)
  refine ⟨s', h1, h2, h3, h4, ?_, ?_⟩
  · intro n x
    constructor
    · intro hx
      rcases (h9 n x).1 hx with ⟨_, _, h⟩ | ⟨_, h⟩
      · exact static_reads hst h4 ((hs.exact n x).1 h)
      · exact (hreads x n).2 h
    · exact good_reads h4
  · intro n x hx hn
    have hb := h4.back n x hx
    have hsub : [n, x].Sublist (names defs) := by
      rcases hb.2 with h | h
      · rw [hm.notIn n hn] at h; cases h
      · exact h
    have htid : x ∈ s.refs n :=
      good_reads hs.good (static_reads hst hs.good ((hreads x n).1 (by
        rcases (h9 n x).1 hx with ⟨_, _, h⟩ | ⟨_, h⟩
        · exact static_reads hst h4 ((hs.exact n x).1 h)
        · exact (hreads x n).2 h)))
    obtain ⟨cn, cx, c1, c2, c3⟩ := hs.tidy n x htid hn
    refine ⟨cn, cx, c1, c2, ?_⟩
    rcases c3 with c3 | ⟨c3, c4⟩
    · exact Or.inl c3
    · refine Or.inr ⟨c3, ?_⟩
      rw [h5]
      by_cases hnL : n ∈ L
      · have hxL := hLcl n hnL x htid
        have hr : Reads defs t x n := (static_reads hst htg ((hs.exact n x).1 htid))
        obtain ⟨a, b, hab⟩ := List.append_of_mem hxL
        have hna := h8 a x b hab n hr hnL
        refine List.Sublist.trans ?_ (List.sublist_append_right ..)
        rw [hab]
        exact List.Sublist.append (List.singleton_sublist.2 hna)
          (List.singleton_sublist.2 (by simp))
      · have hnm : n ∈ s.order := c4.subset (by simp)
        have hnf : n ∈ s.order.filter (fun y => !L.contains y) :=
          List.mem_filter.2 ⟨hnm, by simpa using hnL⟩
        by_cases hxL : x ∈ L
        · exact List.Sublist.append (List.singleton_sublist.2 hnf) (List.singleton_sublist.2 hxL)
        · refine List.Sublist.trans ?_ (List.sublist_append_left ..)
          have := c4.filter (fun y => !L.contains y)
          have e : [n, x].filter (fun y => !L.contains y) = [n, x] := by
            rw [List.filter_eq_self]
            intro y hy
            simp only [List.mem_cons, List.not_mem_nil, or_false] at hy
            rcases hy with rfl | rfl
            · simpa using hnL
            · simpa using hxL
          rwa [e] at this

theorem inPlace_fine {isIn : String → Bool} {defs : List (String × Comp ι V S)}
    {s : State ι V S} {p : String} {new : ι → Option V} (hs : Fine isIn defs s)
    (hsh : ShapeOnly defs p) (hkeep : ∀ j, (s.inputs p j).isNone = true → (new j).isNone = true) :
    Fine isIn defs (updateInPlace s p new) := by
  have hrun : ∀ d ∈ defs, d.2.run (updateInPlace s p new).inputs s.held
      = d.2.run s.inputs s.held := by
    intro d hd
    refine hsh d hd _ _ _ ?_ ?_
    · intro n hn
      unfold updateInPlace setAt
      dsimp only
      rw [if_neg hn]
    · intro j
      unfold updateInPlace setAt merge
      dsimp only
      rw [if_pos rfl]
      have := hkeep j
      cases ho : s.inputs p j <;> cases hn : new j <;> simp_all
  have hreads : ∀ x n, Reads defs (updateInPlace s p new) x n ↔ Reads defs s x n := by
    intro x n
    unfold Reads
    constructor
    · rintro ⟨c, v, r, a, b, d⟩
      exact ⟨c, v, r, a, (hrun _ a).symm.trans b, d⟩
    · rintro ⟨c, v, r, a, b, d⟩
      exact ⟨c, v, r, a, (hrun _ a).trans b, d⟩
  refine ⟨⟨?_, hs.good.only, hs.good.order, hs.good.back⟩, ?_, hs.tidy⟩
  · intro pre x c post hsp
    obtain ⟨v, r, b1, b2, b3⟩ := hs.good.built pre x c post hsp
    exact ⟨v, r, (hrun (x, c) (by rw [hsp]; simp)).trans b1, b2, b3⟩
  · intro n x
    rw [hreads x n]
    exact hs.exact n x

end Update
end Calliope
