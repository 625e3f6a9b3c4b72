import Verif.Proofs.Scenario

/-!
# Properties C07, C09, C10: scenarios, overrides and their priority

Vocabulary: `Verif/Spec/ModelDefinition.lean`.
-/

namespace Calliope
namespace ModelDefinition

/-! ## C09 -/

/-- `{"all": ["cold", "cheap"], "cold": ["winter"]}` with overrides `winter` and `cheap`. -/
def exampleScenarios : Scenarios :=
  { scenarios := [("all", [.name "cold", .name "cheap"]), ("cold", [.name "winter"])],
    overrides := ["winter", "cheap"] }

/-- The expansion of a list of items (helper for `C09_expansion`). -/
theorem expansion_items (s : Scenarios) (fuel : Nat) (items : List Item) (l : List String)
    (h : loadItems s fuel items = some (.ok l)) :
    l.Nodup ∧ (∀ o, o ∈ l ↔ Reached s items (.name o) ∧ s.scenarios.lookup o = none) ∧
      ∀ i, Reached s items i → ¬ Bad s i :=
  (loadItems_recOk s fuel).1 items l h

example : loadItems exampleScenarios 2 [.name "all"] = some (.ok ["winter", "cheap"]) := by decide

/-- Errors of the expansion of a list of items (helper for `C09_errors`). -/
theorem errors_items (s : Scenarios) (fuel : Nat) (items : List Item) (e : Err)
    (h : loadItems s fuel items = some (.error e)) :
    e = .modelError ∧ ∃ i, Reached s items i ∧ Bad s i :=
  (loadItems_recOk s fuel).2 items e h

example : loadItems exampleScenarios 2 [.name "all", .name "typo"] = some (.error .modelError) := by
  decide

/-- Helper for `C09_acyclic_returns`. -/
theorem acyclic_items (s : Scenarios) (hs : Acyclic s) (items : List Item) :
    ∃ fuel r, (∀ f, fuel ≤ f → loadItems s f items = some r) ∧
      ((∃ e, r = .error e) ↔ ∃ i, Reached s items i ∧ Bad s i) := by
  obtain ⟨rank, hrank⟩ := hs
  obtain ⟨b, hb⟩ : ∃ b, ∀ m, .name m ∈ items → rank m < b := by
    clear hrank
    induction items with
    | nil => exact ⟨0, by simp⟩
    | cons x xs ih =>
      obtain ⟨b, hb⟩ := ih
      cases x with
      | dict => exact ⟨b, fun m hm => hb m (by simpa using hm)⟩
      | name o =>
        refine ⟨max b (rank o + 1), fun m hm => ?_⟩
        simp only [List.mem_cons, Item.name.injEq] at hm
        rcases hm with rfl | hm
        · omega
        · have := hb m hm; omega
  have hne := loadItems_returns s rank hrank b items (fun m _ hm _ => hb m hm)
  rcases hr : loadItems s b items with _ | r
  · exact absurd hr hne
  · refine ⟨b, r, ?_, ?_⟩
    · intro f hf
      obtain ⟨k, rfl⟩ := Nat.le.dest hf
      clear hf
      induction k with
      | zero => exact hr
      | succ k ih => exact loadItems_mono s (b + k) items r ih
    · constructor
      · rintro ⟨e, rfl⟩; exact ((loadItems_recOk s b).2 items e hr).2
      · rintro ⟨i, h1, h2⟩
        cases r with
        | error e => exact ⟨e, rfl⟩
        | ok l => exact absurd h2 (((loadItems_recOk s b).1 items l hr).2.2 i h1)

example : Acyclic exampleScenarios := by
  refine ⟨fun n => if n = "all" then 1 else 0, ?_⟩
  intro n sub m sub' h1 h2 h3
  simp only [exampleScenarios, List.lookup] at h1 h3
  split at h1 <;> rename_i hn
  · cases h1
    have hn' : n = "all" := by simpa using hn
    subst hn'
    have : m ≠ "all" := by rintro rfl; simp at h2
    simp [this]
  · split at h1
    · cases h1
      simp at h2
      subst h2
      simp at h3
    · cases h1

theorem reached_names (s : Scenarios) (ns : List String) (i : Item) :
    Reached s (ns.map .name) i ↔ ∃ n ∈ ns, Reached s [.name n] i := by
  constructor
  · intro h
    cases h with
    | here h =>
      obtain ⟨n, hn, rfl⟩ := List.mem_map.1 h
      exact ⟨n, hn, .here (by simp)⟩
    | nested h hl hr =>
      obtain ⟨n, hn, he⟩ := List.mem_map.1 h
      cases he
      exact ⟨_, hn, .nested (by simp) hl hr⟩
  · rintro ⟨n, hn, h⟩
    cases h with
    | here h => simp at h; subst h; exact .here (List.mem_map.2 ⟨n, hn, rfl⟩)
    | nested h hl hr =>
      simp at h; subst h
      exact .nested (List.mem_map.2 ⟨_, hn, rfl⟩) hl hr

/-- The items `loadOverrides` starts from. -/
theorem loadOverrides_root (s : Scenarios) (scenario : String) :
    ∃ items, (∀ fuel, loadOverrides s fuel scenario = loadItems s fuel items) ∧
      ∀ i, (∀ n, i = .name n → s.scenarios.lookup n = none) →
        (Reached s items i ↔ ∃ n, Asked s scenario n ∧ Reached s [.name n] i) := by
  rcases hl : s.scenarios.lookup scenario with _ | items
  · refine ⟨(Text.split ',' scenario).map .name, fun fuel => by simp [loadOverrides, hl], ?_⟩
    intro i _
    rw [reached_names]
    simp [Asked, hl]
  · refine ⟨items, fun fuel => by simp [loadOverrides, hl], ?_⟩
    intro i hi
    constructor
    · intro h; exact ⟨scenario, Or.inl ⟨by simp [hl], rfl⟩, .nested (by simp) hl h⟩
    · rintro ⟨n, hn, h⟩
      rcases hn with ⟨_, rfl⟩ | ⟨h', _⟩
      · cases h with
        | here h => simp at h; subst h; rw [hi n rfl] at hl; cases hl
        | nested h hl' hr => simp at h; subst h; rw [hl] at hl'; cases hl'; exact hr
      · rw [hl] at h'; cases h'

theorem bad_noScenario {s : Scenarios} {i : Item} (h : Bad s i) :
    ∀ n, i = .name n → s.scenarios.lookup n = none := by
  rintro n rfl; exact h.1

/-- C09: if expanding the requested scenario string returns, the result has no repeats and
holds exactly the override names reachable from what was asked for, through any nesting of
scenarios; nothing reachable is undefined. -/
theorem C09_expansion (s : Scenarios) (fuel : Nat) (scenario : String) (l : List String)
    (h : loadOverrides s fuel scenario = some (.ok l)) :
    l.Nodup ∧
    (∀ o, o ∈ l ↔ s.scenarios.lookup o = none ∧
      ∃ n, Asked s scenario n ∧ Reached s [.name n] (.name o)) ∧
    ∀ n i, Asked s scenario n → Reached s [.name n] i → ¬ Bad s i := by
  obtain ⟨items, h1, h2⟩ := loadOverrides_root s scenario
  rw [h1] at h
  obtain ⟨ha, hb, hc⟩ := expansion_items s fuel items l h
  refine ⟨ha, fun o => ?_, fun n i hn hr hbad => ?_⟩
  · rw [hb o]
    constructor
    · rintro ⟨x, y⟩; exact ⟨y, (h2 (.name o) (by rintro n hn; cases hn; exact y)).1 x⟩
    · rintro ⟨y, x⟩; exact ⟨(h2 (.name o) (by rintro n hn; cases hn; exact y)).2 x, y⟩
  · exact hc i ((h2 i (bad_noScenario hbad)).2 ⟨n, hn, hr⟩) hbad

example : loadOverrides exampleScenarios 2 "all" = some (.ok ["winter", "cheap"]) := by decide
example : loadOverrides exampleScenarios 2 "cheap,cold" = some (.ok ["cheap", "winter"]) := by decide

/-- C09: the only error is a `ModelError`, and it is raised only if something undefined (or
a dictionary) is reachable. -/
theorem C09_errors (s : Scenarios) (fuel : Nat) (scenario : String) (e : Err)
    (h : loadOverrides s fuel scenario = some (.error e)) :
    e = .modelError ∧ ∃ n i, Asked s scenario n ∧ Reached s [.name n] i ∧ Bad s i := by
  obtain ⟨items, h1, h2⟩ := loadOverrides_root s scenario
  rw [h1] at h
  obtain ⟨ha, i, hr, hb⟩ := errors_items s fuel items e h
  obtain ⟨n, hn, hr'⟩ := (h2 i (bad_noScenario hb)).1 hr
  exact ⟨ha, n, i, hn, hr', hb⟩

example : loadOverrides exampleScenarios 2 "cold,typo" = some (.error .modelError) := by decide

/-- C09: with scenarios that are not circular the expansion always returns, whatever is
requested, and so raises exactly when something undefined is reachable. -/
theorem C09_acyclic_returns (s : Scenarios) (hs : Acyclic s) (scenario : String) :
    ∃ fuel r, (∀ f, fuel ≤ f → loadOverrides s f scenario = some r) ∧
      ((∃ e, r = .error e) ↔ ∃ n i, Asked s scenario n ∧ Reached s [.name n] i ∧ Bad s i) := by
  obtain ⟨items, h1, h2⟩ := loadOverrides_root s scenario
  obtain ⟨fuel, r, h3, h4⟩ := acyclic_items s hs items
  refine ⟨fuel, r, fun f hf => by rw [h1]; exact h3 f hf, ?_⟩
  rw [h4]
  constructor
  · rintro ⟨i, hr, hb⟩
    obtain ⟨n, hn, hr'⟩ := (h2 i (bad_noScenario hb)).1 hr
    exact ⟨n, i, hn, hr', hb⟩
  · rintro ⟨n, i, hn, hr, hb⟩
    exact ⟨i, (h2 i (bad_noScenario hb)).2 ⟨n, hn, hr⟩, hb⟩

/-- C09: a scenario that reaches itself is never expanded, at any recursion depth.  (The
code does not detect this: it recurses until Python's recursion limit.) -/
theorem C09_circular_never_returns (s : Scenarios) (n : String) (sub : List Item)
    (hl : s.scenarios.lookup n = some sub) (hr : Reached s sub (.name n)) (fuel : Nat)
    (l : List String) : loadOverrides s fuel n ≠ some (.ok l) := by
  simp only [loadOverrides, hl]
  exact loadItems_no_self s n sub hl hr fuel l

example : loadOverrides ⟨[("a", [.name "b"]), ("b", [.name "a"])], []⟩ 50 "a" = none := by decide

/-! ## C10 -/

/-- C10, partial: if no leaf of one override lies above, below or on a leaf of another, they
combine without error in *every* order, and the leaves of the result are exactly the leaves
of the overrides - so the order does not matter.  Missing: overrides of which one has a
value where another has a dictionary (`C10_order_matters`). -/
theorem C10_order_independent_partial {α : Type} (os os' : List (Dict α)) (hperm : os.Perm os')
    (hw : ∀ o ∈ os, o.WF) (hs : os.Pairwise (fun a b => Dict.Separate a b ∧ Dict.Separate b a)) :
    ∃ d d', combineOverrides .nil os = .ok d ∧ combineOverrides .nil os' = .ok d' ∧
      (∀ p v, d.LeafAt p v ↔ d'.LeafAt p v) ∧ (∀ p v, d.LeafAt p v ↔ ∃ o ∈ os, o.LeafAt p v) := by
  have hnil : ∀ o : Dict α, Dict.Separate .nil o := by
    intro o p v q w hp
    have := hp.2.1
    rw [Dict.lookup_emptyDict p hp.1] at this; cases this
  have hs' : os'.Pairwise (fun a b => Dict.Separate a b ∧ Dict.Separate b a) :=
    hperm.pairwise hs (fun h => ⟨h.2, h.1⟩)
  obtain ⟨d, h1, _, h2⟩ := combine_ok os .nil trivial hw (fun o _ => hnil o) (hs.imp (·.1))
  obtain ⟨d', h1', _, h2'⟩ := combine_ok os' .nil trivial
    (fun o ho => hw o (hperm.mem_iff.2 ho)) (fun o _ => hnil o) (hs'.imp (·.1))
  have hn : ∀ p v, ¬ (Dict.nil : Dict α).LeafAt p v := by
    intro p v hp
    have := hp.2.1
    rw [Dict.lookup_emptyDict p hp.1] at this; cases this
  refine ⟨d, d', h1, h1', ?_, ?_⟩
  · intro p v
    simp only [h2, h2', hn, false_or, hperm.mem_iff]
  · intro p v
    simp only [h2, hn, false_or]

/-- Two overrides that set different keys of the same technology. -/
example : [(Dict.sub "a" (.leaf "b" (some 1) .nil) .nil : Dict Nat),
    .sub "a" (.leaf "c" (some 2) .nil) .nil].Pairwise
      (fun a b => Dict.Separate a b ∧ Dict.Separate b a) := by
  have key : ∀ a b : Dict Nat, a.WF → b.WF →
      (∀ p ∈ a.keysNested, ∀ q ∈ b.keysNested, ¬ Dict.Related q p) → Dict.Separate a b := by
    intro a b ha hb h p v q w hp hq
    exact h p ((Dict.mem_keysNested a ha p).2 ⟨v, hp⟩) q ((Dict.mem_keysNested b hb q).2 ⟨w, hq⟩)
  simp only [List.pairwise_cons, List.mem_singleton, forall_eq, List.not_mem_nil, false_implies,
    implies_true, List.Pairwise.nil, and_true]
  exact ⟨key _ _ (by decide) (by decide) (by decide), key _ _ (by decide) (by decide) (by decide)⟩

/-- C10 is false of the code: two overrides, neither repeating a key of the other, whose
combination succeeds in both orders with different results - and the order is that of a
Python set of strings, which differs from run to run. -/
theorem C10_order_matters :
    ∃ (a b d d' : Dict Nat) (p : Path), a.WF ∧ b.WF ∧
      (∀ q v w, a.LeafAt q v → ¬ b.LeafAt q w) ∧
      combineOverrides .nil [a, b] = .ok d ∧ combineOverrides .nil [b, a] = .ok d' ∧
      d.lookup p = none ∧ d'.lookup p = some (.leaf (some 1)) := by
  let a : Dict Nat := .sub "x" (.leaf "a" (some 5) (.leaf "c" (some 1) .nil)) .nil
  let b : Dict Nat := .sub "x" (.sub "a" (.leaf "b" (some 7) .nil) .nil) .nil
  refine ⟨a, b, b, a, ["x", "c"], by decide, by decide, ?_, by decide, by decide, by decide, by decide⟩
  intro q v w ha hb
  have h1 := (Dict.mem_keysNested a (by decide) q).2 ⟨v, ha⟩
  have h2 := (Dict.mem_keysNested b (by decide) q).2 ⟨w, hb⟩
  have : ∀ q ∈ a.keysNested, q ∉ b.keysNested := by decide
  exact this q h1 h2

/-! ## C07 -/

/-- C07, partial: `override_dict` beats the scenario's overrides, which beat the model
definition.  `o`, `s` and `m` are the three dictionaries (`s` already combined).
Assumptions: no `_REPLACE_` keys (see C08), no scalar of one where another needs a dictionary
(without this the property fails, see C02), no deprecated `locations` key.  The template and
keyword stages are `C11_local_over_template_partial` and `C07_kwargs_partial`. -/
theorem C07_priority_partial (m o s : Def) (hm : m.WF) (ho : o.WF) (hs : s.WF)
    (hwo : Dict.NoKey Dict.wipeKey o) (hws : Dict.NoKey Dict.wipeKey s)
    (h1 : Dict.FitsOn o m) (h2 : Dict.FitsOn s m) (h3 : Dict.FitsOn s o) (h4 : Dict.FitsOn o s)
    (hl : m.lookup ["locations"] = none ∧ o.lookup ["locations"] = none ∧
      s.lookup ["locations"] = none) :
    ∃ r, loadScenarioOverrides m o (some s) = .ok r ∧ r.WF ∧
      ∀ p, p.head? ≠ some "overrides" → p.head? ≠ some "scenarios" →
        (∀ a, o.LeafAt p (.leaf (some a)) → r.lookup p = some (.leaf (some a))) ∧
        (∀ a, o.Silent p → s.LeafAt p (.leaf (some a)) → r.lookup p = some (.leaf (some a))) ∧
        (p ≠ [] → o.Silent p → s.Silent p → r.lookup p = m.lookup p) := by
  have nw : ∀ d : Def, Dict.NoKey Dict.wipeKey d → ∀ p v, d.LeafAt p v → Dict.wipeKey ∉ p := by
    intro d hd p v hp hmem
    have := hp.2.1
    rw [hd p hmem] at this; cases this
  -- first pass of override_dict
  obtain ⟨m1, e1, w1, a1, b1⟩ := Dict.union_ok true m o hm ho h1 (by simp)
  -- dropping the overrides / scenarios sections
  let m2 := pop (pop m1 "overrides") "scenarios"
  have w2 : m2.WF := Dict.WF_del1 (Dict.WF_del1 w1)
  have l2 : ∀ p : Path, p ≠ [] → p.head? ≠ some "overrides" → p.head? ≠ some "scenarios" →
      m2.lookup p = m1.lookup p := by
    intro p hp0 hp1 hp2
    cases p with
    | nil => exact absurd rfl hp0
    | cons k ks =>
      simp only [List.head?_cons, ne_eq, Option.some.injEq] at hp1 hp2
      show (Dict.del1 (Dict.del1 m1 "overrides") "scenarios").lookup (k :: ks) = _
      rw [lookup_del1_ne _ hp2, lookup_del1_ne _ hp1]
  have c2 : ∀ p, m1.Clear p → m2.Clear p := fun p h =>
    clear_del1 _ (Dict.WF_del1 w1) _ _ (clear_del1 _ w1 _ _ h)
  -- the scenario
  have hs2 : ∀ p v, s.LeafAt p v → m2.Clear p := fun p v hp =>
    c2 p (Dict.union_clear m o m1 ho a1 b1 p (h2 p v hp) (h3 p v hp))
  obtain ⟨m3, e3, w3, a3, b3⟩ := Dict.union_ok true m2 s w2 hs hs2 (by simp)
  -- second pass of override_dict
  let o' := pop (pop o "scenarios") "overrides"
  have ho' : o'.WF := Dict.WF_del1 (Dict.WF_del1 ho)
  have lo' : ∀ p v, o'.LeafAt p v ↔
      (o.LeafAt p v ∧ p.head? ≠ some "scenarios") ∧ p.head? ≠ some "overrides" := by
    intro p v
    show (Dict.del1 (Dict.del1 o "scenarios") "overrides").LeafAt p v ↔ _
    rw [leafAt_del1 _ (Dict.WF_del1 ho), leafAt_del1 _ ho]
  have ho3 : ∀ p v, o'.LeafAt p v → m3.Clear p := fun p v hp => by
    have hp' := ((lo' p v).1 hp).1.1
    exact Dict.union_clear m2 s m3 hs a3 b3 p
      (c2 p (Dict.union_clear m o m1 ho a1 b1 p (h1 p v hp') (by
        rintro q hq hne ⟨x, hx⟩
        exact hne (Dict.leafAt_antichain (Dict.leafAt_scalar hx) hp' (Or.inl hq)))))
      (h4 p v hp')
  obtain ⟨m4, e4, w4, a4, b4⟩ := Dict.union_ok true m3 o' w3 ho' ho3 (by simp)
  have hor : (if o = .nil then (.ok m3 : Except Err Def)
      else m3.unionReplace o' true) = .ok (if o = .nil then m3 else m4) := by
    split
    · rfl
    · rw [Dict.unionReplace_eq_union _ _ _ ho' (fun p v hp => nw o hwo p v ((lo' p v).1 hp).1.1), e4]
  -- no `locations`
  have hloc : ∀ d : Def, (∀ a, d.lookup ["locations"] = some a →
      (∃ b, m.lookup ["locations"] = some b) ∨ (∃ b, o.lookup ["locations"] = some b) ∨
      (∃ b, s.lookup ["locations"] = some b)) → d.get1 "locations" = none := by
    intro d hd
    rw [← Dict.lookup_single]
    rcases hh : d.lookup ["locations"] with _ | x
    · rfl
    · rcases hd x hh with ⟨b, hb⟩ | ⟨b, hb⟩ | ⟨b, hb⟩
      · rw [hl.1] at hb; cases hb
      · rw [hl.2.1] at hb; cases hb
      · rw [hl.2.2] at hb; cases hb
  have or1 : ∀ a, m1.lookup ["locations"] = some a →
      (∃ b, m.lookup ["locations"] = some b) ∨ (∃ b, o.lookup ["locations"] = some b) ∨
      (∃ b, s.lookup ["locations"] = some b) := by
    intro a ha
    rcases Dict.union_mem true m o m1 ho e1 _ a ha with h | h
    · exact Or.inl h
    · exact Or.inr (Or.inl h)
  have or3 : ∀ a, m3.lookup ["locations"] = some a →
      (∃ b, m.lookup ["locations"] = some b) ∨ (∃ b, o.lookup ["locations"] = some b) ∨
      (∃ b, s.lookup ["locations"] = some b) := by
    intro a ha
    rcases Dict.union_mem true m2 s m3 hs e3 _ a ha with ⟨b, h⟩ | h
    · rw [l2 _ (by simp) (by simp) (by simp)] at h
      exact or1 b h
    · exact Or.inr (Or.inr h)
  have or4 : ∀ a, m4.lookup ["locations"] = some a →
      (∃ b, m.lookup ["locations"] = some b) ∨ (∃ b, o.lookup ["locations"] = some b) ∨
      (∃ b, s.lookup ["locations"] = some b) := by
    intro a ha
    rcases Dict.union_mem true m3 o' m4 ho' e4 _ a ha with ⟨b, h⟩ | ⟨b, h⟩
    · exact or3 b h
    · have : o'.lookup ["locations"] = o.lookup ["locations"] := by
        show (Dict.del1 (Dict.del1 o "scenarios") "overrides").lookup _ = _
        rw [lookup_del1_ne _ (by decide), lookup_del1_ne _ (by decide)]
      rw [this] at h
      exact Or.inr (Or.inl ⟨b, h⟩)
  refine ⟨if o = .nil then m3 else m4, ?_, ?_, ?_⟩
  · unfold loadScenarioOverrides
    rw [Dict.unionReplace_eq_union _ _ _ ho (nw o hwo), e1]
    simp only
    rw [Dict.unionReplace_eq_union _ _ _ hs (nw s hws)]
    rw [show (pop (pop m1 "overrides") "scenarios").union s true = .ok m3 from e3]
    simp only
    rw [show (if o = Dict.nil then (Except.ok m3 : Except Err Def)
        else m3.unionReplace (pop (pop o "scenarios") "overrides") true)
        = .ok (if o = .nil then m3 else m4) from hor]
    simp only
    rw [hloc _ (by split; exact or3; exact or4)]
  · split
    · exact w3
    · exact w4
  · intro p hp1 hp2
    by_cases hon : o = .nil
    · -- an empty override_dict
      subst hon
      have hempty : ∀ q v, ¬ (Dict.nil : Def).LeafAt q v := by
        intro q v hq
        have := hq.2.1
        rw [Dict.lookup_emptyDict q hq.1] at this; cases this
      simp only [if_true]
      refine ⟨fun a ha => absurd ha (hempty _ _), ?_, ?_⟩
      · intro a _ hsa
        rw [a3 p _ hsa]; rfl
      · intro hp0 _ hss
        rw [b3 p hss, l2 p hp0 hp1 hp2, b1 p (fun q v hq => absurd hq (hempty _ _))]
    · simp only [hon, if_false]
      refine ⟨?_, ?_, ?_⟩
      · intro a ha
        rw [a4 p _ ((lo' p _).2 ⟨⟨ha, hp2⟩, hp1⟩)]; rfl
      · intro a hos hsa
        rw [b4 p (fun q v hq => hos q v ((lo' q v).1 hq).1.1), a3 p _ hsa]; rfl
      · intro hp0 hos hss
        rw [b4 p (fun q v hq => hos q v ((lo' q v).1 hq).1.1), b3 p hss, l2 p hp0 hp1 hp2,
          b1 p hos]

/-- A base definition, a scenario and an `override_dict` that all set `techs.pv.cap`; the
scenario also sets `techs.pv.cost`. -/
def exampleBase : Def :=
  .sub "techs" (.sub "pv" (.leaf "cap" (some (.int 1)) (.leaf "cost" (some (.int 2))
    (.leaf "name" (some (.str "pv")) .nil))) .nil) .nil
def exampleScenario : Def :=
  .sub "techs" (.sub "pv" (.leaf "cap" (some (.int 10)) (.leaf "cost" (some (.int 20)) .nil)) .nil) .nil
def exampleOverride : Def :=
  .sub "techs" (.sub "pv" (.leaf "cap" (some (.int 100)) .nil) .nil) .nil

example : ∃ r, loadScenarioOverrides exampleBase exampleOverride (some exampleScenario) = .ok r ∧
    r.lookup ["techs", "pv", "cap"] = some (.leaf (some (.int 100))) ∧
    r.lookup ["techs", "pv", "cost"] = some (.leaf (some (.int 20))) ∧
    r.lookup ["techs", "pv", "name"] = some (.leaf (some (.str "pv"))) := by
  obtain ⟨r, h1, _, h2⟩ := C07_priority_partial exampleBase exampleOverride exampleScenario
    (by decide) (by decide) (by decide)
    (Dict.noKey_of _ _ (by decide) (by decide)) (Dict.noKey_of _ _ (by decide) (by decide))
    (Dict.clear_all (by decide) (by decide)) (Dict.clear_all (by decide) (by decide))
    (Dict.clear_all (by decide) (by decide)) (Dict.clear_all (by decide) (by decide)) (by decide)
  refine ⟨r, h1, ?_, ?_, ?_⟩
  · exact (h2 _ (by decide) (by decide)).1 _ ⟨by decide, by decide, by simp⟩
  · exact (h2 _ (by decide) (by decide)).2.1 _ (Dict.silent_of _ (by decide) _ (by decide))
      ⟨by decide, by decide, by simp⟩
  · exact (h2 _ (by decide) (by decide)).2.2 (by decide) (Dict.silent_of _ (by decide) _ (by decide))
      (Dict.silent_of _ (by decide) _ (by decide))

/-- C07, partial: keyword arguments beat everything in `config.init`, provided `config.init`
is not already a scalar (and no keyword argument is a dictionary where a scalar is). -/
theorem C07_kwargs_partial (m o : Def) (s : Option Def) (kw d r : Def) (hr : r.WF) (hkw : kw.WF)
    (hd : loadScenarioOverrides m o s = .ok d) (ht : solveTemplates d = some (.ok r))
    (hc : Dict.FitsOn (.sub "config" (.sub "init" kw .nil) .nil) r) :
    ∃ f, prepare m o s kw = some (.ok f) ∧
      (∀ q a, kw.LeafAt q (.leaf (some a)) →
        f.lookup ("config" :: "init" :: q) = some (.leaf (some a))) ∧
      (∀ p, (∀ q, ¬ Dict.Related ("config" :: "init" :: q) p) → f.lookup p = r.lookup p) := by
  have hw : (Dict.sub "config" (.sub "init" kw .nil) .nil).WF := by simp [Dict.WF, Dict.keys, hkw]
  obtain ⟨f, e, _, a, b⟩ := Dict.union_ok true r _ hr hw hc (by simp)
  have hlk : ∀ q, (Dict.sub "config" (.sub "init" kw .nil) .nil).lookup ("config" :: "init" :: q)
      = kw.lookup q := by
    intro q; simp [Dict.lookup_cons, Dict.get1, Val.lookup]
  refine ⟨f, ?_, ?_, ?_⟩
  · simp [prepare, hd, ht, e]
  · intro q x hq
    rw [a _ (.leaf (some x)) ⟨by simp, by rw [hlk]; exact hq.2.1, by simp⟩]; rfl
  · intro p hp
    apply b
    intro q v hq
    have h2 := hq.2.1
    match q with
    | [] => exact absurd rfl hq.1
    | k :: ks =>
      by_cases hk : k = "config"
      · subst hk
        match ks with
        | [] =>
          exfalso
          rw [Dict.lookup_single] at h2
          simp [Dict.get1] at h2
          have := hq.2.2 _ h2.symm
          cases this
        | k2 :: ks =>
          by_cases hk2 : k2 = "init"
          · subst hk2; exact hp ks
          · exfalso; simp [Dict.lookup_cons, Dict.get1, Val.lookup, Ne.symm hk2] at h2
      · exfalso; simp [Dict.lookup_cons, Dict.get1, Ne.symm hk] at h2

example : ∃ f, prepare exampleBase exampleOverride (some exampleScenario)
      (.leaf "name" (some (.str "new")) .nil) = some (.ok f) ∧
    f.lookup ["config", "init", "name"] = some (.leaf (some (.str "new"))) := by
  obtain ⟨f, h1, h2, _⟩ := C07_kwargs_partial exampleBase exampleOverride (some exampleScenario)
    (.leaf "name" (some (.str "new")) .nil) _ _ (by decide) (by decide) rfl rfl
    (Dict.clear_all (by decide) (by decide))
  exact ⟨f, h1, h2 ["name"] _ ⟨by decide, by decide, by simp⟩⟩

end ModelDefinition
end Calliope
